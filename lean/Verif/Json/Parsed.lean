import Verif.Json.Explain
import Mathlib.Data.List.Perm.Basic

set_option autoImplicit false

/-!
# `ParsedMessage.JSON` (C79)
-/

namespace Argo.Json

open Argo
open Argo.Nmea2k (Val Parsed DataMap)
open Argo.Signalk (Str bs Time Stamp Value)

/-! ## Model -/

/-- When and how a message was received: `Header.Timestamp` with its nanoseconds, and whether `Header.Data` is the
nil slice (parsed_message.go:64: of a message from a file). -/
structure Receipt where
  time : Time
  ns : Nat
  noData : Bool

/-- can/can.go:29-46 `RawMessage`, embedded in `nmea2k.RawMessage` (raw_message.go:36-38), so that its fields are
those of the object. -/
def headerOut (r : Receipt) (h : RawMessage) : Option Out :=
  (timeOut r.time r.ns).map fun t => .obj [
    (bs "Timestamp", t), (bs "Priority", .num (bs (toString h.priority.toNat))), (bs "Pgn", .num (bs (toString h.pgn))),
    (bs "Source", .num (bs (toString h.source.toNat))), (bs "Destination", .num (bs (toString h.destination.toNat))),
    (bs "Length", .num (bs (toString h.length.toNat))),
    (bs "Data", if r.noData then .null else .str (ascii (base64 h.data.vis)))]

/-- A member of the object of values. -/
def memberOut (enc : Enc) (e : String × Val) : Option (Str × Out) := (valOut enc e.2).map (fun o => (bs e.1, o))

/-- parsed_message.go:36-44 `DataMap.MarshalJSON`: `json.Marshal` of a map with string keys sorts the keys. -/
def dataOut (enc : Enc) (d : DataMap) : Option Out :=
  (allSome (((Nmea2k.marshalKeys (d.map (fun e => ((e.1 : Int), e.2)))).insertionSort (fun a b => a.1 ≤ b.1)).map
    (memberOut enc))).map .obj

/-- parsed_message.go:143-152 `ParsedMessage.JSON`: `none` is nil, after the error has been printed. -/
def parsedJson (enc : Enc) (r : Receipt) (p : Parsed) : Option (List Byte) :=
  match headerOut r p.header, dataOut enc p.data with
  | some h, some d => some (print enc.newer (.obj [(bs "Header", h), (bs "Index", .num (bs (toString p.index))), (bs "Data", d)]))
  | _, _ => none

/-! ## Specification -/

/-- The JSON value of the header. -/
def HeaderJson (r : Receipt) (h : RawMessage) (j : Json) : Prop :=
  ∃ ts data, ShowsInstant r.time.stamp r.ns ts ∧
    (if r.noData then data = Json.null else ∃ text, unbase64 text = some h.data.vis ∧ data = .str text) ∧
    j = .obj [("Timestamp".toList, .str ts), ("Priority".toList, jnat h.priority.toNat), ("Pgn".toList, jnat h.pgn),
      ("Source".toList, jnat h.source.toNat), ("Destination".toList, jnat h.destination.toNat),
      ("Length".toList, jnat h.length.toNat), ("Data".toList, data)]

/-- The JSON value of a parsed message: under every index in decimal its value. -/
def ParsedJson (enc : Enc) (r : Receipt) (p : Parsed) (j : Json) : Prop :=
  ∃ h d vs, HeaderJson r p.header h ∧ d.Perm p.data ∧
    List.Forall₂ (fun e m => m.1 = (toString e.1).toList ∧ Shown enc (.plain e.2) m.2) d vs ∧
    j = .obj [("Header".toList, h), ("Index".toList, jnat p.index), ("Data".toList, .obj vs)]

/-! ## Proofs -/

theorem allSome_forall {α : Type} {l : List (Option α)} {os : List α} (h : allSome l = some os) :
    List.Forall₂ (fun x o => x = some o) l os := by
  induction l generalizing os with
  | nil => cases h; exact .nil
  | cons x l ih =>
    cases x with
    | none => cases h
    | some x =>
      obtain ⟨os', h1, rfl⟩ := Option.map_eq_some_iff.mp h
      exact .cons rfl (ih h1)

theorem allSome_isSome {α : Type} {l : List (Option α)} (h : ∀ x ∈ l, x.isSome) : (allSome l).isSome := by
  induction l with
  | nil => rfl
  | cons x l ih =>
    cases x with
    | none => exact absurd (h none (by simp)) (by simp)
    | some x =>
      have := ih (fun y hy => h y (by simp [hy]))
      simp only [allSome, Option.isSome_map, this]

theorem member_spec {enc : Enc} (hs : Sane enc) : ∀ {l : List (String × Val)} {os : List (Str × Out)},
    List.Forall₂ (fun x o => x = some o) (l.map (memberOut enc)) os →
    NumbersO os ∧ List.Forall₂ (fun e m => m.1 = e.1.toList ∧ Shown enc (.plain e.2) m.2) l (fields os) := by
  intro l
  induction l with
  | nil => intro os h; cases h; exact ⟨trivial, .nil⟩
  | cons e l ih =>
    intro os h
    cases h with
    | cons h1 h2 =>
      obtain ⟨o, ho, rfl⟩ := Option.map_eq_some_iff.mp h1
      obtain ⟨i1, i2⟩ := ih h2
      have hv := valueOut_spec hs (v := .plain e.2) (o := o) ho
      exact ⟨⟨hv.1, i1⟩, .cons ⟨chars_bs _, hv.2⟩ i2⟩

theorem headerOut_spec {r : Receipt} (hns : r.ns < 10 ^ 9) (hz : -360000 < r.time.off ∧ r.time.off < 360000)
    {h : RawMessage} {o : Out} (ho : headerOut r h = some o) : Numbers o ∧ HeaderJson r h (meaning o) := by
  obtain ⟨t, ht, rfl⟩ := Option.map_eq_some_iff.mp ho
  obtain ⟨hn, ts, hts, hm⟩ := timeOut_spec ht hns hz.1 hz.2
  have hb : ∀ b : List Byte, unbase64 (chars (ascii (base64 b))) = some b := by
    intro b
    rw [chars_ascii (base64_ascii b), unbase64_base64]
  constructor
  · simp only [Numbers, NumbersO]
    refine ⟨hn, isNumber_nat _, isNumber_nat _, isNumber_nat _, isNumber_nat _, isNumber_nat _, ?_, trivial⟩
    split <;> simp only [Numbers]
  · refine ⟨ts, if r.noData then .null else .str (chars (ascii (base64 h.data.vis))), hts, ?_, ?_⟩
    · cases r.noData
      · exact ⟨_, hb _, rfl⟩
      · rfl
    · simp only [meaning, fields, chars_bs, jnat, hm]
      cases r.noData <;> simp [meaning]

/-- The data of a message under the text of its indices. -/
theorem dataOut_spec {enc : Enc} (hs : Sane enc) {d : DataMap} (hd : (d.map Prod.fst).Nodup) {o : Out}
    (ho : dataOut enc d = some o) : Numbers o ∧ ∃ d' vs, d'.Perm d ∧
      List.Forall₂ (fun e m => m.1 = (toString e.1).toList ∧ Shown enc (.plain e.2) m.2) d' vs ∧ meaning o = .obj vs := by
  obtain ⟨os, hos, rfl⟩ := Option.map_eq_some_iff.mp ho
  have hk : Nmea2k.marshalKeys (d.map (fun e => ((e.1 : Int), e.2))) = d.map (fun e => (toString e.1, e.2)) := by
    rw [Nmea2k.marshalKeys_eq]
    · rw [List.map_map]; rfl
    · rw [List.map_map]
      have : (Prod.fst ∘ fun e : Nat × Val => ((e.1 : Int), e.2)) = (fun n : Nat => (n : Int)) ∘ Prod.fst := rfl
      rw [this, ← List.map_map]
      exact List.Pairwise.map _ (fun a b h h' => h (by exact_mod_cast h')) hd
  rw [hk] at hos
  have hp := List.perm_insertionSort (fun a b : String × Val => a.1 ≤ b.1) (d.map (fun e => (toString e.1, e.2)))
  have hm := member_spec hs (allSome_forall hos)
  generalize (d.map (fun e => (toString e.1, e.2))).insertionSort (fun a b : String × Val => a.1 ≤ b.1) = l at hp hm
  have hl : ∃ d' : DataMap, l = d'.map (fun e => (toString e.1, e.2)) ∧ d'.Perm d := by
    have e := congrFun (congrFun (List.eq_map_comp_perm (fun e : Nat × Val => (toString e.1, e.2))) l) d
    exact e.mpr hp
  obtain ⟨d', rfl, hp'⟩ := hl
  refine ⟨hm.1, d', fields os, hp', ?_, rfl⟩
  have := hm.2
  rw [List.forall₂_map_left_iff] at this
  exact this

/-! ## Theorems -/

/-- **C79** (the text): what `JSON` returns is one JSON text with the header, the index and, under every index in
decimal, the value of that index. -/
theorem C79_json {enc : Enc} (hs : Sane enc) {r : Receipt} (hns : r.ns < 10 ^ 9)
    (hz : -360000 < r.time.off ∧ r.time.off < 360000) {p : Parsed} (hd : (p.data.map Prod.fst).Nodup) {b : List Byte}
    (h : parsedJson enc r p = some b) : ∃ j, ParsedJson enc r p j ∧ ∀ j', Reads b j' ↔ j' = j := by
  unfold parsedJson at h
  split at h
  · rename_i ho dd hh hdd
    injection h with h
    subst h
    obtain ⟨n1, j1⟩ := headerOut_spec hns hz hh
    obtain ⟨n2, d', vs, hp, hf, hm⟩ := dataOut_spec hs hd hdd
    refine ⟨_, ⟨meaning ho, d', vs, j1, hp, hf, rfl⟩, fun j' => ?_⟩
    rw [reads_print_iff enc.newer (by simp only [Numbers, NumbersO]; exact ⟨n1, isNumber_nat _, n2, trivial⟩)]
    simp only [meaning, fields, chars_bs, jnat, hm]
  · cases h

/-- **C79** (no losses): `JSON` of every decoded message received in the years 0 to 9999 returns a text. -/
theorem C79_total {enc : Enc} (hl : Local enc) {r : Receipt} (hy : 0 ≤ r.time.stamp.year ∧ r.time.stamp.year ≤ 9999)
    {env : Nmea2k.Env} {raw : RawMessage} {p : Parsed} (hp : Nmea2k.ParsePacket Nmea2k.Table.pgnList env raw (.ok p)) :
    ∃ b, parsedJson enc r p = some b := by
  have h1 : (headerOut r p.header).isSome := by
    simp [headerOut, timeOut, timeText, hy]
  have h2 : (dataOut enc p.data).isSome := by
    unfold dataOut
    rw [Option.isSome_map]
    refine allSome_isSome fun x hx => ?_
    obtain ⟨e, he, rfl⟩ := List.mem_map.mp hx
    have he := (List.perm_insertionSort _ _).subset he
    have hnd : (p.data.map Prod.fst).Nodup := by rw [(Nmea2k.C49_shape hp).2]; exact List.nodup_range
    rw [Nmea2k.marshalKeys_eq] at he
    · simp only [List.map_map, List.mem_map, Function.comp_apply] at he
      obtain ⟨e', he', rfl⟩ := he
      have := valOut_some hl (parsed_small hp e' he')
      unfold memberOut
      rw [Option.isSome_map]
      exact Option.isSome_iff_ne_none.mpr this
    · rw [List.map_map]
      have : (Prod.fst ∘ fun e : Nat × Val => ((e.1 : Int), e.2)) = (fun n : Nat => (n : Int)) ∘ Prod.fst := rfl
      rw [this, ← List.map_map]
      exact List.Pairwise.map _ (fun a b h h' => h (by exact_mod_cast h')) hnd
  obtain ⟨a, ha⟩ := Option.isSome_iff_exists.mp h1
  obtain ⟨d, hd⟩ := Option.isSome_iff_exists.mp h2
  unfold parsedJson
  rw [ha, hd]
  exact ⟨_, rfl⟩

/-! ### The hypotheses can be met -/

/-- A message with ten indices and more, whose keys are not in the order of the numbers. -/
def exampleParsed : Parsed :=
  ⟨⟨2, 129025, 3, 255, 8, ⟨[1, 2], []⟩⟩, 5, [(2, .u64 7), (10, .sint 8 (-3)), (0, .nil)]⟩

example : (exampleParsed.data.map Prod.fst).Nodup := by decide +kernel

example : (parsedJson exampleEnc ⟨⟨0, 0⟩, 5000000, false⟩ exampleParsed) = some (bs
    "{\"Header\":{\"Timestamp\":\"1970-01-01T00:00:00.005Z\",\"Priority\":2,\"Pgn\":129025,\"Source\":3,\"Destination\":255,\"Length\":8,\"Data\":\"AQI=\"},\"Index\":5,\"Data\":{\"0\":null,\"10\":-3,\"2\":7}}") := by
  decide +kernel

end Argo.Json
