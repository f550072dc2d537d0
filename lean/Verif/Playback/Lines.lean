import Verif.Playback.Props
import Verif.Playback.Strict
import Verif.Nmea2k.Table

set_option autoImplicit false

/-! # C125: playing back lines -/

namespace Argo.Playback

open Argo
open Argo.Json (Json isDigit Reads)
open Argo.Signalk (bs)
open Argo.Nmea2k (CanBoat CanBoatParsed Pgn fromCanBoat)
open Argo.Nmea2k.Spec (mapGet)
open Argo.Nmea2k.Table (pgnList)

variable {α : Type} {limit : Option Nat} {f : Json → α} {line : List Byte} {c : CanBoat α}

theorem lastFits_lt {bits n : Nat} {key : String} {ms : List (List Char × Json)} (h : LastFits bits key ms n) : n < 2 ^ bits := by
  rcases h with ⟨_, _, _, _, _, ⟨_, _, _, _, h⟩, _⟩ | ⟨_, rfl⟩
  · exact h
  · exact Nat.two_pow_pos bits

theorem lookup_map (d : List (List Char × Json)) (name : String) :
    mapGet (d.map fun e => (String.ofList e.1, f e.2)) name = (lookup d name.toList).map f := by
  unfold lookup mapGet
  induction d with
  | nil => rfl
  | cons e d ih =>
    rw [List.map_cons]
    by_cases h : e.1 = name.toList
    · rw [List.find?_cons_of_pos (by simp [h]), List.find?_cons_of_pos (by simp [h])]; rfl
    · rw [List.find?_cons_of_neg (by
        simp only [decide_eq_true_eq]
        intro hc
        apply h
        rw [← hc]; simp), List.find?_cons_of_neg (by simpa using h)]
      exact ih

theorem decoded_keys (hc : Decodes limit f line c) : (c.fields.map Prod.fst).Nodup := by
  have h1 : (((unmarshal limit line).fields).map Prod.fst).Nodup := by
    unfold unmarshal
    split
    · exact fields_keys _
    · exact List.nodup_nil
  have h2 := (hc.fields.map Prod.fst).nodup_iff.mpr (by
    rw [List.map_map]
    have : (Prod.fst ∘ fun e : List Char × Json => (String.ofList e.1, f e.2)) = String.ofList ∘ Prod.fst := rfl
    rw [this, ← List.map_map]
    refine (List.nodup_map_iff ?_).mpr h1
    intro a b h
    have := congrArg String.toList h
    simpa using this)
  exact h2

/-- **C125** (exactly): what is read from any line.  If it is an object, each number of the header is that of the last member with
the name, in upper or lower case, that is a number without sign, point and exponent and fits (0 if there is none), and the value
under a name of the fields is the last one; any other line, be it JSON or not, is read as a message with zeros and no fields. -/
theorem C125_exact (hc : Decodes limit f line c) :
    (∃ ms, accepted limit line = some (.obj ms) ∧ LastFits 8 "prio" ms c.priority.toNat ∧ LastFits 8 "src" ms c.source.toNat ∧
      LastFits 8 "dst" ms c.destination.toNat ∧ LastFits 32 "pgn" ms c.pgn ∧ (c.fields.map Prod.fst).Nodup ∧
      ∀ name v, mapGet c.fields name = some v ↔ ∃ w, LastField ms name.toList w ∧ v = f w) ∨
    ((∀ ms, accepted limit line ≠ some (.obj ms)) ∧ c = CanBoat.zero) := by
  have hk := decoded_keys hc
  obtain ⟨h1, h2, h3, h4, h5⟩ := hc
  by_cases ha : ∃ ms, accepted limit line = some (.obj ms)
  · obtain ⟨ms, ha⟩ := ha
    have hu : unmarshal limit line = ms.foldl store Target.zero := by unfold unmarshal; rw [ha]
    rw [hu] at h1 h2 h3 h4 h5
    obtain ⟨g1, g2, g3, g4⟩ := header_exact ms
    have e : ∀ {n : Nat}, n < 2 ^ 8 → (UInt8.ofNat n).toNat = n := by intro n hn; simp; omega
    refine Or.inl ⟨ms, ha, ?_, ?_, ?_, ?_, hk, ?_⟩
    · rw [h1, e (lastFits_lt g1)]; exact g1
    · rw [h2, e (lastFits_lt g2)]; exact g2
    · rw [h3, e (lastFits_lt g3)]; exact g3
    · rw [h4]; exact g4
    · intro name v
      rw [Nmea2k.mapGet_perm h5 hk, lookup_map, Option.map_eq_some_iff]
      constructor
      · rintro ⟨w, hw, rfl⟩; exact ⟨w, (fields_exact ms _ w).mp hw, rfl⟩
      · rintro ⟨w, hw, rfl⟩; exact ⟨w, (fields_exact ms _ w).mpr hw, rfl⟩
  · refine Or.inr ⟨fun ms h => ha ⟨ms, h⟩, ?_⟩
    have hu : unmarshal limit line = Target.zero := by
      unfold unmarshal
      split
      · rename_i ms h; exact absurd ⟨ms, h⟩ ha
      · rfl
    rw [hu] at h1 h2 h3 h4 h5
    obtain ⟨a, b, d, p, fs⟩ := c
    simp only [Target.zero, List.map_nil, List.perm_nil] at h1 h2 h3 h4 h5
    subst h1 h2 h3 h4 h5
    rfl

theorem accepted_of_reads {v : Json} (h : Reads line v) (hd : ∀ n, limit = some n → depth v ≤ n) : accepted limit line = some v := by
  unfold accepted
  rw [read_reads h]
  cases limit with
  | none => rfl
  | some n => simp only; rw [if_pos (hd n rfl)]

/-- **C125** (which lines): a text with no replacement character in it is accepted exactly if it is JSON (RFC 8259), and nested no
deeper than the limit; it is then read as what it says.  (Texts that are not Unicode are accepted with U+FFFD in the places of what
is not.) -/
theorem C125_json {v : Json} (hv : intact v) :
    accepted limit line = some v ↔ Reads line v ∧ ∀ n, limit = some n → depth v ≤ n := by
  constructor
  · intro h
    unfold accepted at h
    split at h
    · next w n hr =>
      split at h
      · next hd =>
        cases h
        exact ⟨reads_read hr hv, fun m hm => by cases hm; exact hd⟩
      · cases h
    · next w hr =>
      cases h
      exact ⟨reads_read hr hv, fun m hm => by cases hm⟩
    · cases h
  · rintro ⟨h, hd⟩
    exact accepted_of_reads h hd

/-- **C125** (lines in the usual form): a line as CanBoat writes them is handed over as it is: with its header, the definition of its
PGN (or the first one if there is none), and under each field's number the value that the line has under the field's name, no other
values.  It is refused exactly if its PGN has several definitions. -/
theorem C125_line_partial {tbl : List Pgn} (hne : tbl ≠ []) {u : List Byte → CanBoat α} (hu : ∀ l, Decodes limit f l (u l))
    {prio src dst pgn : Nat} {fs ms : List (List Char × Json)} (h : Recorded line prio src dst pgn fs ms)
    (hd : ∀ n, limit = some n → depth (.obj ms) ≤ n) :
    (∃ r d, fromCanBoat tbl u line = .ok (some r) ∧ r.priority.toNat = prio ∧ r.source.toNat = src ∧ r.destination.toNat = dst ∧
      r.pgn = pgn ∧ tbl[r.index]? = some d ∧ (d.pgn = pgn ∨ (r.index = 0 ∧ ∀ q ∈ tbl, q.pgn ≠ pgn)) ∧
      (∀ k v, mapGet r.data k = some v ↔ ∃ g w, d.fieldList[k]? = some g ∧ (g.name.toList, w) ∈ fs ∧ v = f w) ∧
      ∀ (i : Nat) (q : Pgn), tbl[i]? = some q → q.pgn = pgn → i = r.index) ∨
    (fromCanBoat tbl u line = .ok none ∧ ∃ (i j : Nat) (d q : Pgn), i < j ∧ tbl[i]? = some d ∧ tbl[j]? = some q ∧ d.pgn = pgn ∧ q.pgn = pgn) := by
  have hacc := accepted_of_reads h.reads hd
  rcases C125_exact (hu line) with ⟨ms', ha, g1, g2, g3, g4, hk, hf⟩ | ⟨ha, _⟩
  swap
  · exact absurd hacc (ha ms)
  rw [hacc] at ha
  have hms := Json.obj.inj (Option.some.inj ha)
  subst hms
  have k1 := entry_last (by decide) (by decide) (h.once "prio" (by decide)) h.prio g1
  have k2 := entry_last (by decide) (by decide) (h.once "src" (by decide)) h.src g2
  have k3 := entry_last (by decide) (by decide) (h.once "dst" (by decide)) h.dst g3
  have k4 := entry_last (by decide) (by decide) (h.once "pgn" (by decide)) h.pgn g4
  obtain ⟨i, d, hfst, hdi, hfc⟩ := Nmea2k.C33_first tbl (u line).pgn hne
  obtain ⟨j, q, hlst, hqj, hlc⟩ := Nmea2k.C33_last tbl (u line).pgn hne
  have hle := Nmea2k.C33_first_le_last tbl _ hfst hlst
  rw [k4] at hfc hlc
  by_cases hij : i = j
  · subst hij
    have hdq : d = q := by rw [hdi] at hqj; exact Option.some.inj hqj
    subst hdq
    left
    obtain ⟨r, e0, e1, e2, e3, e4, e5, e6⟩ := Nmea2k.C52_import tbl u line hfst hlst hk
    refine ⟨r, d, e0, by rw [e3, k1], by rw [e4, k2], by rw [e5, k3], by rw [e2, k4], by rw [e1]; exact hdi, ?_, ?_, ?_⟩
    · rcases hfc with ⟨k, _⟩ | ⟨k, k'⟩
      · exact Or.inl k
      · exact Or.inr ⟨by rw [e1]; exact k, k'⟩
    · intro k v
      rw [e6, Option.bind_eq_some_iff]
      constructor
      · rintro ⟨g, hg, hv⟩
        obtain ⟨w, hw, rfl⟩ := (hf _ _).mp hv
        exact ⟨g, w, hg, (entry_field (h.once "fields" (by decide)) h.fields h.distinct _ _).mp hw, rfl⟩
      · rintro ⟨g, w, hg, hw, rfl⟩
        exact ⟨g, hg, (hf _ _).mpr ⟨w, (entry_field (h.once "fields" (by decide)) h.fields h.distinct _ _).mpr hw, rfl⟩⟩
    · intro x qx hx hp
      rw [e1]
      rcases hfc with ⟨_, k⟩ | ⟨_, k⟩
      · rcases hlc with ⟨_, k'⟩ | ⟨_, k'⟩
        · rcases Nat.lt_trichotomy x i with h | h | h
          · exact absurd hp (k x qx h hx)
          · exact h
          · exact absurd hp (k' x qx h hx)
        · exact absurd hp (k' qx (List.mem_of_getElem? hx))
      · exact absurd hp (k qx (List.mem_of_getElem? hx))
  · right
    refine ⟨?_, i, j, d, q, by omega, hdi, hqj, ?_, ?_⟩
    · simp [fromCanBoat, hfst, hlst, bind, Except.bind, pure, Except.pure, hij]
    · rcases hfc with ⟨k, _⟩ | ⟨_, k⟩
      · exact k
      · rcases hlc with ⟨k', _⟩ | ⟨k', _⟩
        · exact absurd k' (k q (List.mem_of_getElem? hqj))
        · omega
    · rcases hlc with ⟨k, _⟩ | ⟨k, _⟩
      · exact k
      · omega

/-! ## What is not refused -/

theorem zero_first : Nmea2k.first pgnList 0 = .ok (0, Nmea2k.Table.p0) := by decide +kernel
theorem zero_last : Nmea2k.last pgnList 0 = .ok (0, Nmea2k.Table.p0) := by decide +kernel

/-- Every line that is not a JSON object is handed over as an unknown message from device 0. -/
theorem malformed {u : List Byte → CanBoat α} (hu : ∀ l, Decodes limit f l (u l))
    (h : ∀ ms, accepted limit line ≠ some (.obj ms)) : fromCanBoat pgnList u line = .ok (some ⟨0, 0, 0, 0, 0, []⟩) := by
  rcases C125_exact (hu line) with ⟨ms, ha, _⟩ | ⟨_, hz⟩
  · exact absurd ha (h ms)
  · simp only [fromCanBoat, hz, CanBoat.zero]
    rw [zero_first, zero_last]
    rfl

/-- What `json.Unmarshal` does, in the order of the file. -/
def decode (limit : Option Nat) (f : Json → α) (l : List Byte) : CanBoat α :=
  ⟨UInt8.ofNat (unmarshal limit l).prio, UInt8.ofNat (unmarshal limit l).src, UInt8.ofNat (unmarshal limit l).dst, (unmarshal limit l).pgn,
    (unmarshal limit l).fields.map fun e => (String.ofList e.1, f e.2)⟩

theorem decode_decodes (l : List Byte) : Decodes limit f l (decode limit f l) := ⟨rfl, rfl, rfl, rfl, List.Perm.refl _⟩

/-- A line that was cut off. -/
def cutOff : List Byte := bs "{\"timestamp\":\"2015-07-04T12:34:56.789\",\"prio\":2,\"src\":7,\"dst\":255,\"pgn\":127250,\"fiel"

/-- A source that is no address. -/
def strange : List Byte := bs "{\"prio\":2,\"src\":300,\"dst\":255,\"pgn\":127245,\"fields\":{}}"

/-- A number with a point. -/
def pointed : List Byte := bs "{\"prio\":2,\"src\":7.0,\"dst\":255,\"pgn\":127245,\"fields\":{}}"

/-- The PGN twice. -/
def twice : List Byte := bs "{\"prio\":2,\"src\":7,\"dst\":255,\"pgn\":127245,\"Pgn\":60928,\"fields\":{}}"

/-- **C125** is false of lines that are not JSON: they are handed over as messages with PGN 0 from device 0; one that was cut off is
one of them. -/
theorem C125_malformed_false {u : List Byte → CanBoat α} (hu : ∀ l, Decodes limit f l (u l)) :
    (∀ line, (∀ v, accepted limit line ≠ some v) → fromCanBoat pgnList u line = .ok (some ⟨0, 0, 0, 0, 0, []⟩)) ∧
    (∀ v, ¬ Reads cutOff v) ∧ fromCanBoat pgnList u cutOff = .ok (some ⟨0, 0, 0, 0, 0, []⟩) := by
  have hr : read cutOff = none := by
    have : (read cutOff).isNone = true := by decide +kernel
    exact Option.isNone_iff_eq_none.mp this
  refine ⟨fun line h => malformed hu fun ms => h _, fun v hv => ?_, malformed hu fun ms => ?_⟩
  · rw [read_reads hv] at hr; cases hr
  · unfold accepted; rw [hr]; simp

/-- The numbers of a line. -/
def headerOf (l : List Byte) : Nat × Nat × Nat × Nat := ((unmarshal (some 10000) l).prio, (unmarshal (some 10000) l).src,
  (unmarshal (some 10000) l).dst, (unmarshal (some 10000) l).pgn)

theorem header_of {u : List Byte → CanBoat α} (hu : ∀ l, Decodes (some 10000) f l (u l)) {a b d p i : Nat} {D : Pgn} (h : headerOf line = (a, b, d, p))
    (hf : Nmea2k.first pgnList p = .ok (i, D)) (hl : Nmea2k.last pgnList p = .ok (i, D)) :
    ∃ r, fromCanBoat pgnList u line = .ok (some r) ∧ r.priority = UInt8.ofNat a ∧ r.source = UInt8.ofNat b ∧
      r.destination = UInt8.ofNat d ∧ r.pgn = p ∧ r.index = i := by
  unfold headerOf at h
  simp only [Prod.mk.injEq] at h
  obtain ⟨h1, h2, h3, h4⟩ := h
  have hc := hu line
  have hp : (u line).pgn = p := by rw [hc.pgn, h4]
  obtain ⟨r, e0, e1, e2, e3, e4, e5, _⟩ := Nmea2k.C52_import pgnList u line (by rw [hp]; exact hf) (by rw [hp]; exact hl) (decoded_keys hc)
  exact ⟨r, e0, by rw [e3, hc.priority, h1], by rw [e4, hc.source, h2], by rw [e5, hc.destination, h3], by rw [e2, hp], e1⟩

theorem rudder_first : Nmea2k.first pgnList 127245 = .ok (76, Nmea2k.Table.p76) := by decide +kernel
theorem rudder_last : Nmea2k.last pgnList 127245 = .ok (76, Nmea2k.Table.p76) := by decide +kernel
theorem claim_first : Nmea2k.first pgnList 60928 = .ok (3, Nmea2k.Table.p3) := by decide +kernel
theorem claim_last : Nmea2k.last pgnList 60928 = .ok (3, Nmea2k.Table.p3) := by decide +kernel

/-- The members of a line, names and numbers only. -/
def outline (l : List Byte) : Option (List (List Char × Option (List Byte))) :=
  match Json.read l with
  | some (.obj ms) => some (ms.map fun m => (m.1, match m.2 with | .num t => some t | _ => none))
  | _ => none

theorem outline_reads {l : List Byte} {x : List (List Char × Option (List Byte))} (h : outline l = some x) :
    ∃ ms, Reads l (.obj ms) ∧ x = ms.map fun m => (m.1, match m.2 with | .num t => some t | _ => none) := by
  unfold outline at h
  split at h
  · next ms hr => exact ⟨ms, (Json.reads_iff l _).mpr hr, (Option.some.inj h).symm⟩
  · cases h

/-- **C125** is false of numbers that do not fit and of numbers written with a point: the message has a 0 in their place.  A line
from source 300, and one from source `7.0`, are handed over as messages from source 0. -/
theorem C125_number_false {u : List Byte → CanBoat α} (hu : ∀ l, Decodes (some 10000) f l (u l)) :
    ∀ p ∈ [(strange, bs "300"), (pointed, bs "7.0")],
      (∃ ms, Reads p.1 (.obj ms) ∧ ("src".toList, Json.num p.2) ∈ ms) ∧
      ∃ r, fromCanBoat pgnList u p.1 = .ok (some r) ∧ r.pgn = 127245 ∧ r.source = 0 := by
  have h1 : ∀ p ∈ [(strange, bs "300"), (pointed, bs "7.0")], headerOf p.1 = (2, 0, 255, 127245) := by decide +kernel
  have h2 : ∀ p ∈ [(strange, bs "300"), (pointed, bs "7.0")], ∃ x, outline p.1 = some x ∧ ("src".toList, some p.2) ∈ x := by
    have : ∀ p ∈ [(strange, bs "300"), (pointed, bs "7.0")], ((outline p.1).any fun x => x.contains ("src".toList, some p.2)) = true := by
      decide +kernel
    intro p hp
    have := this p hp
    cases ho : outline p.1 with
    | none => rw [ho] at this; cases this
    | some x => rw [ho] at this; exact ⟨x, rfl, by simpa using this⟩
  intro p hp
  constructor
  · obtain ⟨x, hx, hm⟩ := h2 p hp
    obtain ⟨ms, hr, rfl⟩ := outline_reads hx
    obtain ⟨m, hm, he⟩ := List.mem_map.mp hm
    refine ⟨ms, hr, ?_⟩
    simp only [Prod.mk.injEq] at he
    obtain ⟨k, v⟩ := m
    simp only at he
    obtain ⟨rfl, he⟩ := he
    split at he
    · next t => rw [Option.some.inj he] at hm; exact hm
    · cases he
  · obtain ⟨r, e0, _, e1, _, e2, _⟩ := header_of hu (h1 p hp) rudder_first rudder_last
    exact ⟨r, e0, e2, e1⟩

/-- **C125** is false of names: a member `Pgn` is taken for `pgn`, so that a rudder message is handed over as an address claim. -/
theorem C125_case_false {u : List Byte → CanBoat α} (hu : ∀ l, Decodes (some 10000) f l (u l)) :
    (∃ ms, Reads twice (.obj ms) ∧ ("pgn".toList, Json.num (bs "127245")) ∈ ms ∧ (ms.filter fun m => m.1 = "pgn".toList).length = 1) ∧
    ∃ r, fromCanBoat pgnList u twice = .ok (some r) ∧ r.pgn = 60928 := by
  constructor
  · have h : outline twice = some [("prio".toList, some (bs "2")), ("src".toList, some (bs "7")), ("dst".toList, some (bs "255")),
        ("pgn".toList, some (bs "127245")), ("Pgn".toList, some (bs "60928")), ("fields".toList, none)] := by decide +kernel
    obtain ⟨ms, hr, he⟩ := outline_reads h
    refine ⟨ms, hr, ?_, ?_⟩
    · have hm : ("pgn".toList, some (bs "127245")) ∈ ms.map fun m => (m.1, match m.2 with | .num t => some t | _ => none) := by
        rw [← he]; simp
      obtain ⟨m, hm, he⟩ := List.mem_map.mp hm
      obtain ⟨k, v⟩ := m
      simp only [Prod.mk.injEq] at he
      obtain ⟨rfl, he⟩ := he
      split at he
      · next t => rw [Option.some.inj he] at hm; exact hm
      · cases he
    · have : (ms.filter fun m => m.1 = "pgn".toList).length =
          ((ms.map fun m => ((m.1, match m.2 with | .num t => some t | _ => none) : List Char × Option (List Byte))).filter
            fun m => m.1 = "pgn".toList).length := by
        rw [List.filter_map, List.length_map]; rfl
      rw [this, ← he]
      decide +kernel
  · have h1 : headerOf twice = (2, 7, 255, 60928) := by decide +kernel
    obtain ⟨r, e0, _, _, _, e2, _⟩ := header_of hu h1 claim_first claim_last
    exact ⟨r, e0, e2⟩

/-! ## A line -/

/-- A line of CanBoat's analyzer. -/
def heading : List Byte :=
  bs "{\"timestamp\":\"2015-07-04T12:34:56.789\",\"prio\":2,\"src\":7,\"dst\":255,\"pgn\":127250,\"description\":\"Vessel Heading\"," ++
  bs "\"fields\":{\"Heading\":1.5,\"Reference\":\"True\"}}"

/-- What is in it. -/
def headingMembers : List (List Char × Json) :=
  [("timestamp".toList, .str "2015-07-04T12:34:56.789".toList), ("prio".toList, .num (bs "2")), ("src".toList, .num (bs "7")),
    ("dst".toList, .num (bs "255")), ("pgn".toList, .num (bs "127250")), ("description".toList, .str "Vessel Heading".toList),
    ("fields".toList, .obj [("Heading".toList, .num (bs "1.5")), ("Reference".toList, .str "True".toList)])]

mutual

/-- Equality of JSON values, computed. -/
def same : Json → Json → Bool
  | .null, .null => true
  | .bool a, .bool b => a == b
  | .num a, .num b => decide (a = b)
  | .str a, .str b => decide (a = b)
  | .arr a, .arr b => sameL a b
  | .obj a, .obj b => sameO a b
  | _, _ => false

def sameL : List Json → List Json → Bool
  | [], [] => true
  | v :: l, w :: m => same v w && sameL l m
  | _, _ => false

def sameO : List (List Char × Json) → List (List Char × Json) → Bool
  | [], [] => true
  | v :: l, w :: m => decide (v.1 = w.1) && same v.2 w.2 && sameO l m
  | _, _ => false

end

mutual

theorem same_eq : ∀ v w : Json, same v w = true → v = w
  | .null, w, h => by cases w <;> simp [same] at h ⊢
  | .bool a, w, h => by cases w <;> simp_all [same]
  | .num a, w, h => by cases w <;> simp_all [same]
  | .str a, w, h => by cases w <;> simp_all [same]
  | .arr a, w, h => by
    cases w with
    | arr b => rw [sameL_eq a b (by simpa [same] using h)]
    | _ => simp [same] at h
  | .obj a, w, h => by
    cases w with
    | obj b => rw [sameO_eq a b (by simpa [same] using h)]
    | _ => simp [same] at h

theorem sameL_eq : ∀ v w : List Json, sameL v w = true → v = w
  | [], w, h => by cases w <;> simp [sameL] at h ⊢
  | v :: l, w, h => by
    cases w with
    | nil => simp [sameL] at h
    | cons w m =>
      simp only [sameL, Bool.and_eq_true] at h
      rw [same_eq v w h.1, sameL_eq l m h.2]

theorem sameO_eq : ∀ v w : List (List Char × Json), sameO v w = true → v = w
  | [], w, h => by cases w <;> simp [sameO] at h ⊢
  | (k, v) :: l, w, h => by
    cases w with
    | nil => simp [sameO] at h
    | cons w m =>
      obtain ⟨k', w⟩ := w
      simp only [sameO, Bool.and_eq_true, decide_eq_true_eq] at h
      rw [h.1.1, same_eq v w h.1.2, sameO_eq l m h.2]

end

theorem heading_reads : Reads heading (.obj headingMembers) := by
  rw [Json.reads_iff]
  have h : (match Json.read heading with | some v => same v (.obj headingMembers) | none => false) = true := by decide +kernel
  cases hr : Json.read heading with
  | none => rw [hr] at h; cases h
  | some v => rw [hr] at h; rw [same_eq v _ h]

/-- The line is one that `C125_line_partial` is about. -/
theorem heading_recorded : Recorded heading 2 7 255 127250
    [("Heading".toList, .num (bs "1.5")), ("Reference".toList, .str "True".toList)] headingMembers where
  reads := heading_reads
  once := by decide +kernel
  prio := Or.inl ⟨by rw [show bs (toString 2) = bs "2" by decide +kernel]; simp [headingMembers], by decide⟩
  src := Or.inl ⟨by rw [show bs (toString 7) = bs "7" by decide +kernel]; simp [headingMembers], by decide⟩
  dst := Or.inl ⟨by rw [show bs (toString 255) = bs "255" by decide +kernel]; simp [headingMembers], by decide⟩
  pgn := Or.inl ⟨by rw [show bs (toString 127250) = bs "127250" by decide +kernel]; simp [headingMembers], by decide⟩
  fields := Or.inl (by simp [headingMembers])
  distinct := by decide +kernel

/-- It is handed over with its heading under number 1 and its reference under number 4. -/
example (f : Json → α) : ∃ r, fromCanBoat pgnList (decode (some 10000) f) heading = .ok (some r) ∧ r.source.toNat = 7 ∧
    (∃ d, pgnList[r.index]? = some d ∧ d.pgn = 127250) ∧ ∀ g ∈ [Json.num (bs "1.5"), Json.str "True".toList], ∃ k, mapGet r.data k = some (f g) := by
  have hne : pgnList ≠ [] := List.cons_ne_nil _ _
  have hp : ∀ (i j : Nat) (d q : Pgn), pgnList[i]? = some d → pgnList[j]? = some q → d.pgn = 127250 → q.pgn = 127250 → i = 77 ∧ j = 77 := by
    have hall : ∀ i < pgnList.length, (match pgnList[i]? with | some d => d.pgn == 127250 && i != 77 | none => false) = false := by
      decide +kernel
    intro i j d q hi hj hd hq
    have li := (List.getElem?_eq_some_iff.mp hi).1
    have lj := (List.getElem?_eq_some_iff.mp hj).1
    have h1 := hall i li
    have h2 := hall j lj
    rw [hi] at h1; rw [hj] at h2
    simp only [hd, hq, beq_self_eq_true, Bool.true_and, bne_eq_false_iff_eq] at h1 h2
    exact ⟨h1, h2⟩
  have h77 : pgnList[77]? = some Nmea2k.Table.p77 := by decide +kernel
  rcases C125_line_partial hne (u := decode (some 10000) f) decode_decodes heading_recorded
      (fun n hn => by rw [← Option.some.inj hn]; decide +kernel) with
    ⟨r, d, h0, _, h2, _, _, h5, h6, h7, h8⟩ | ⟨_, i, j, d, q, hij, hi, hj, hd, hq⟩
  · have hi : r.index = 77 := (h8 77 Nmea2k.Table.p77 h77 (by decide +kernel)).symm
    rw [hi, h77] at h5
    have hdd := Option.some.inj h5
    subst hdd
    refine ⟨r, h0, h2, ⟨_, by rw [hi]; exact h77, by decide +kernel⟩, ?_⟩
    have hn : (Nmea2k.Table.p77.fieldList.map (·.name)) = ["SID", "Heading", "Deviation", "Variation", "Reference"] := by decide +kernel
    have get : ∀ (k : Nat) (n : String), (Nmea2k.Table.p77.fieldList.map (·.name))[k]? = some n → ∃ g : Nmea2k.Field, Nmea2k.Table.p77.fieldList[k]? = some g ∧ g.name = n := by
      intro k n h
      rw [List.getElem?_map, Option.map_eq_some_iff] at h
      exact h
    intro v hv
    have : v = .num (bs "1.5") ∨ v = .str "True".toList := by simpa using hv
    rcases this with rfl | rfl
    · obtain ⟨g, hg, hgn⟩ := get 1 "Heading" (by rw [hn]; rfl)
      exact ⟨1, (h7 1 _).mpr ⟨g, _, hg, by rw [hgn]; simp, rfl⟩⟩
    · obtain ⟨g, hg, hgn⟩ := get 4 "Reference" (by rw [hn]; rfl)
      exact ⟨4, (h7 4 _).mpr ⟨g, _, hg, by rw [hgn]; simp, rfl⟩⟩
  · obtain ⟨a, b⟩ := hp i j d q hi hj hd hq
    omega

end Argo.Playback
