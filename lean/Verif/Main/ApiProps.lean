import Verif.Main.Api
import Verif.Nmea2k.Lookup
import Mathlib.Data.List.TakeWhile

set_option autoImplicit false

/-! # C70 (message index) and C71 (message details) -/

namespace Argo.Main

open Argo Argo.Nmea2k

/-! ## Specification -/

/-- Message kinds by size: at most 8 bytes, at most 223 (fast packet), at most 1785 (ISO multi-packet),
larger. -/
inductive Kind where
  | single | fast | iso | other
  deriving DecidableEq, Repr

def kindOf (size : Nat) : Kind :=
  if size ≤ 8 then .single else if size ≤ 223 then .fast else if size ≤ 1785 then .iso else .other

def Kind.letter : Kind → String
  | .single => "s" | .fast => "f" | .iso => "i" | .other => "o"

def Kind.label : Kind → String
  | .single => "Single Frame" | .fast => "Fast Packet" | .iso => "ISO 11783 Multi-Packet" | .other => "Invalid"

/-- The listing entry of definition `d` at index `i`. -/
def entryFor (i : Nat) (d : Pgn) : IndexEntry :=
  { pgn := d.pgn, name := d.description, category := d.category, verified := d.isKnown, size := d.size,
    repeatingFields := d.repeatingFields, type := (kindOf d.size).label,
    details := Signalk.bs "/api/v1/messages/" ++ decimal i }

/-- The definitions of a table with their indices, in order. -/
def numbered (tbl : List Pgn) : List (Nat × Pgn) := (List.range tbl.length).zip tbl

/-- The query asks for this definition. -/
def wanted (fold : String → String → Bool) (category typ : String) (d : Pgn) : Bool :=
  (category == "" || fold category d.category) && (typ == "" || typ == (kindOf d.size).letter)

/-! ## C70 -/

theorem summary_eq {tbl : List Pgn} {i : Nat} {d : Pgn} (h : tbl[i]? = some d) :
    getPGNSummary tbl i = .ok (entryFor i d) := by
  unfold getPGNSummary
  rw [h]
  simp only [entryFor, kindOf]
  by_cases h1 : d.size ≤ 8
  · simp [h1, Kind.label]
  · by_cases h2 : d.size ≤ 223
    · have : d.size > 8 := by omega
      simp [h1, h2, this, Kind.label]
    · by_cases h3 : d.size ≤ 1785
      · have : d.size > 223 := by omega
        simp [h1, h2, h3, this, Kind.label]
      · simp [h1, h2, h3, Kind.label]

theorem indexLoop_eq (tbl : List Pgn) (fold : String → String → Bool) (category typ : String)
    (i : Nat) (rest : List Pgn) (acc : List IndexEntry) (h : ∀ k d, rest[k]? = some d → tbl[i + k]? = some d) :
    indexLoop tbl fold category typ i rest acc = .ok (acc ++
      (((List.range' i rest.length).zip rest).filter (fun e => wanted fold category typ e.2)).map
        (fun e => entryFor e.1 e.2)) := by
  induction rest generalizing i acc with
  | nil => simp [indexLoop]
  | cons d rest ih =>
    have hd := h 0 d rfl
    rw [Nat.add_zero] at hd
    have hrest : ∀ k e, rest[k]? = some e → tbl[i + 1 + k]? = some e := fun k e he => by
      have := h (k + 1) e (by simpa using he)
      rwa [Nat.add_assoc, Nat.add_comm 1 k]
    rw [indexLoop, List.length_cons, List.range'_succ, List.zip_cons_cons, List.filter_cons]
    by_cases hc : category ≠ "" ∧ ¬ fold category d.category
    · rw [if_pos hc, ih (i + 1) acc hrest]
      have : wanted fold category typ d = false := by
        have h1 : (category == "") = false := by simpa using hc.1
        have h2 : fold category d.category = false := by simpa using hc.2
        simp [wanted, h1, h2]
      simp [this]
    · rw [if_neg hc, summary_eq hd]
      simp only [bind, Except.bind]
      have hcat : (category == "" || fold category d.category) = true := by
        by_cases h1 : category = ""
        · simp [h1]
        · simp only [ne_eq, h1, not_false_eq_true, true_and, Bool.not_eq_true, Bool.not_eq_false] at hc
          simp [hc]
      have hw : wanted fold category typ d = (typ == "" || typ == (kindOf d.size).letter) := by
        simp [wanted, hcat]
      rw [ih (i + 1) _ hrest, hw]
      by_cases ht : typ = ""
      · simp [ht]
      · have htb : (typ == "") = false := by simpa using ht
        rw [if_pos (by simpa using ht), htb, Bool.false_or]
        have hsz : (entryFor i d).size = d.size := rfl
        rw [hsz]
        unfold kindOf
        by_cases h1 : d.size ≤ 8
        · have n1 : ¬ d.size > 8 := by omega
          have n2 : ¬ d.size > 223 := by omega
          have n3 : ¬ d.size > 1785 := by omega
          by_cases hs : typ = "s" <;> simp [h1, n1, n2, n3, hs, Kind.letter]
        · by_cases h2 : d.size ≤ 223
          · have p1 : d.size > 8 := by omega
            have n2 : ¬ d.size > 223 := by omega
            have n3 : ¬ d.size > 1785 := by omega
            by_cases hs : typ = "f" <;> simp [h1, p1, h2, n2, n3, hs, Kind.letter]
          · by_cases h3 : d.size ≤ 1785
            · have p2 : d.size > 223 := by omega
              have n3 : ¬ d.size > 1785 := by omega
              by_cases hs : typ = "i" <;> simp [h1, h2, h3, p2, n3, hs, Kind.letter]
            · have p3 : d.size > 1785 := by omega
              by_cases hs : typ = "o" <;> simp [h1, h2, h3, p3, hs, Kind.letter]

/-- C70: the listing is, in table order, the entries of the definitions the query asks for: category
equal up to case (`strings.EqualFold`) when one is given, kind equal to the type letter when one is given. -/
theorem C70_index (tbl : List Pgn) (fold : String → String → Bool) (category typ : String) :
    messagesIndex tbl fold category typ = .ok
      (((numbered tbl).filter (fun e => wanted fold category typ e.2)).map (fun e => entryFor e.1 e.2)) := by
  unfold messagesIndex numbered
  rw [indexLoop_eq tbl fold category typ 0 tbl [] (by simp), List.range_eq_range', List.nil_append]

/-- C70: without filters every definition is listed exactly once, in order. -/
theorem C70_all (tbl : List Pgn) (fold : String → String → Bool) :
    ∃ l, messagesIndex tbl fold "" "" = .ok l ∧ l.length = tbl.length ∧
      ∀ i d, tbl[i]? = some d → l[i]? = some (entryFor i d) := by
  refine ⟨_, C70_index tbl fold "" "", ?_, ?_⟩
  · have : (numbered tbl).filter (fun e => wanted fold "" "" e.2) = numbered tbl := by
      rw [List.filter_eq_self]; intro e _; simp [wanted]
    rw [this]; simp [numbered]
  · intro i d h
    have hi : i < tbl.length := (List.getElem?_eq_some_iff.mp h).1
    have : (numbered tbl).filter (fun e => wanted fold "" "" e.2) = numbered tbl := by
      rw [List.filter_eq_self]; intro e _; simp [wanted]
    have hz : (numbered tbl)[i]? = some (i, d) := by
      rw [numbered, List.getElem?_zip_eq_some]
      exact ⟨List.getElem?_range hi, h⟩
    rw [this, List.getElem?_map, hz]
    rfl

/-- C70: the four type letters split the listing: every entry listed for a category is listed under
exactly one letter, the one its type label says; other letters list nothing. -/
theorem C70_partition (tbl : List Pgn) (fold : String → String → Bool) (category : String) :
    ∃ l ls lf li lo, messagesIndex tbl fold category "" = .ok l ∧ messagesIndex tbl fold category "s" = .ok ls ∧
      messagesIndex tbl fold category "f" = .ok lf ∧ messagesIndex tbl fold category "i" = .ok li ∧
      messagesIndex tbl fold category "o" = .ok lo ∧ (ls ++ lf ++ li ++ lo).Perm l ∧
      ls = l.filter (fun e => e.type = "Single Frame") ∧ lf = l.filter (fun e => e.type = "Fast Packet") ∧
      li = l.filter (fun e => e.type = "ISO 11783 Multi-Packet") ∧ lo = l.filter (fun e => e.type = "Invalid") := by
  have key : ∀ k : Kind, ((numbered tbl).filter (fun e => wanted fold category k.letter e.2)).map
      (fun e => entryFor e.1 e.2) =
      (((numbered tbl).filter (fun e => wanted fold category "" e.2)).map (fun e => entryFor e.1 e.2)).filter
        (fun e => e.type = k.label) := by
    intro k
    rw [List.filter_map, List.filter_filter]
    congr 1
    apply List.filter_congr
    intro e _
    have : decide ((entryFor e.1 e.2).type = k.label) = (k.letter == (kindOf e.2.size).letter) := by
      rw [Bool.eq_iff_iff, decide_eq_true_eq, beq_iff_eq]
      show (kindOf e.2.size).label = k.label ↔ _
      generalize kindOf e.2.size = k'
      cases k <;> cases k' <;> simp [Kind.label, Kind.letter]
    simp only [wanted, Function.comp, this]
    cases k <;> simp [Kind.letter, Bool.and_comm]
  refine ⟨_, _, _, _, _, C70_index _ _ _ _, C70_index _ _ _ _, C70_index _ _ _ _, C70_index _ _ _ _,
    C70_index _ _ _ _, ?_, key .single, key .fast, key .iso, key .other⟩
  have ks := key .single; have kf := key .fast; have ki := key .iso; have ko := key .other
  simp only [Kind.letter, Kind.label] at ks kf ki ko
  rw [ks, kf, ki, ko]
  generalize hL : ((numbered tbl).filter (fun e => wanted fold category "" e.2)).map (fun e => entryFor e.1 e.2) = L
  have hlab : ∀ e ∈ L, ∃ k : Kind, e.type = k.label := by
    intro e he
    rw [← hL] at he
    obtain ⟨x, _, rfl⟩ := List.mem_map.mp he
    exact ⟨kindOf x.2.size, rfl⟩
  clear ks kf ki ko key hL
  induction L with
  | nil => exact List.Perm.refl _
  | cons e L ih =>
    have ih' := ih (fun x hx => hlab x (by simp [hx]))
    obtain ⟨k, hk⟩ := hlab e (by simp)
    simp only [List.filter_cons, hk]
    cases k
    · simpa [Kind.label] using ih'
    · simp only [Kind.label, decide_true, String.reduceEq, decide_false, Bool.false_eq_true, if_true, if_false]
      refine List.Perm.trans ?_ (ih'.cons e)
      simp only [List.append_assoc]
      exact List.perm_middle
    · simp only [Kind.label, decide_true, String.reduceEq, decide_false, Bool.false_eq_true, if_true, if_false]
      refine List.Perm.trans ?_ (ih'.cons e)
      rw [List.append_assoc, List.append_assoc (_ ++ _)]
      exact List.perm_middle
    · simp only [Kind.label, decide_true, String.reduceEq, decide_false, Bool.false_eq_true, if_true, if_false]
      refine List.Perm.trans ?_ (ih'.cons e)
      exact List.perm_middle

example : messagesIndex [⟨"A", "x", 1, true, 8, 0, []⟩, ⟨"B", "y", 2, false, 223, 2, []⟩, ⟨"C", "x", 3, true, 9, 0, []⟩]
    (fun a b => a = b) "x" "f" = .ok [⟨3, "C", "x", true, 9, 0, "Fast Packet", Signalk.bs "/api/v1/messages/2"⟩] := by
  decide +kernel

/-! ## C71 -/

theorem decimal_chars (n : Nat) : ∀ c ∈ decimal n, 48 ≤ c.toNat ∧ c.toNat ≤ 57 := by
  induction n using Nat.strongRecOn with
  | _ n ih =>
    intro c hc
    rw [decimal] at hc
    split at hc
    · rename_i h
      rw [List.mem_singleton.mp hc]
      simp only [UInt8.toNat_ofNat']
      omega
    · rename_i h
      rcases List.mem_append.mp hc with hc | hc
      · exact ih (n / 10) (by omega) c hc
      · rw [List.mem_singleton.mp hc]
        simp only [UInt8.toNat_ofNat']
        omega

theorem decimal_ne_nil (n : Nat) : decimal n ≠ [] := by
  rw [decimal]; split <;> simp

theorem digit_ofNat {d : Nat} (h : d < 10) : Signalk.digit (UInt8.ofNat (48 + d)) = some d := by
  unfold Signalk.digit
  have e : (UInt8.ofNat (48 + d)).toNat = 48 + d := by simp only [UInt8.toNat_ofNat']; omega
  rw [if_pos ⟨by rw [UInt8.le_iff_toNat_le, e]; simp, by rw [UInt8.le_iff_toNat_le, e]; simp; omega⟩, e]
  simp

theorem parseDigits_decimal (n : Nat) (hn : n < 2 ^ 32) (rest : Str) :
    Signalk.digits 32 (decimal n ++ rest) 0 = Signalk.digits 32 rest n := by
  induction n using Nat.strongRecOn generalizing rest with
  | _ n ih =>
    rw [decimal]
    split
    · rename_i h
      simp only [List.singleton_append, Signalk.digits, digit_ofNat h]
      rw [if_pos (by omega)]
      simp
    · rename_i h
      rw [List.append_assoc, ih (n / 10) (by omega) (by omega)]
      simp only [List.singleton_append, Signalk.digits, digit_ofNat (Nat.mod_lt n (by omega : 10 > 0))]
      have : n / 10 * 10 + n % 10 = n := by omega
      rw [this, if_pos hn]

theorem parseInt32_decimal {n : Nat} (hn : n < 2 ^ 31) : parseInt32 (decimal n) = n := by
  have hp := parseDigits_decimal n (by omega) []
  rw [List.append_nil] at hp
  have hc := decimal_chars n
  have hne := decimal_ne_nil n
  unfold parseInt32 Signalk.parseInt
  cases hd : decimal n with
  | nil => exact absurd hd hne
  | cons c cs =>
    rw [hd] at hp hc
    have h1 : c ≠ 43 := by rintro rfl; have := (hc 43 (by simp)).1; revert this; decide
    have h2 : c ≠ 45 := by rintro rfl; have := (hc 45 (by simp)).1; revert this; decide
    have h3 : ((c :: cs).head? == some 45) = false := by simpa using h2
    have h4 : ¬ ((c :: cs).head? = some 43 ∨ (c :: cs).head? = some 45) := by simp [h1, h2]
    simp only [h3, if_neg h4, hp]
    simp only [Signalk.digits]
    rw [if_neg (by simp), if_neg (by simp), if_pos (by omega)]

/-- A decimal key, alone or with a suffix, splits into the number and the suffix. -/
theorem splitDot_decimal (n : Nat) : splitDot (decimal n) = (decimal n, none) := by
  have hc := decimal_chars n
  have h : ∀ c ∈ decimal n, (decide (c ≠ 46)) = true := by
    intro c hcm
    have := (hc c hcm).1
    simp only [decide_eq_true_eq]
    rintro rfl
    revert this; decide
  have h1 : (decimal n).dropWhile (fun c => decide (c ≠ 46)) = [] := by
    rw [List.dropWhile_eq_nil_iff]; exact h
  have h2 : (decimal n).takeWhile (fun c => decide (c ≠ 46)) = decimal n := by
    rw [List.takeWhile_eq_self_iff]; exact h
  unfold splitDot
  rw [h1, h2]

theorem splitDot_suffix (n : Nat) (ext : Str) (hx : (46 : Byte) ∉ ext) :
    splitDot (decimal n ++ 46 :: ext) = (decimal n, some ext) := by
  have hc := decimal_chars n
  have h : ∀ c ∈ decimal n, (decide (c ≠ 46)) = true := by
    intro c hcm
    have := (hc c hcm).1
    simp only [decide_eq_true_eq]
    rintro rfl
    revert this; decide
  have h1 : (decimal n ++ 46 :: ext).dropWhile (fun c => decide (c ≠ 46)) = 46 :: ext := by
    rw [List.dropWhile_append_of_pos h]; simp
  have h2 : (decimal n ++ 46 :: ext).takeWhile (fun c => decide (c ≠ 46)) = decimal n := by
    rw [List.takeWhile_append_of_pos h]; simp
  have h3 : ext.takeWhile (fun c => decide (c ≠ 46)) = ext := by
    rw [List.takeWhile_eq_self_iff]
    intro c hcm
    simp only [decide_eq_true_eq]
    rintro rfl
    exact hx hcm
  unfold splitDot
  rw [h1, h2]
  simp only [h3]

/-- The two forms of a key for the number `n`, and whether they ask for XML. -/
inductive KeyFor (n : Nat) : Str → Bool → Prop where
  | plain : KeyFor n (decimal n) false
  | xml : KeyFor n (decimal n ++ Signalk.bs ".xml") true
  | other (ext : Str) : (46 : Byte) ∉ ext → ext ≠ Signalk.bs "xml" → KeyFor n (decimal n ++ 46 :: ext) false

theorem keyFor_split {n : Nat} {key : Str} {x : Bool} (h : KeyFor n key x) :
    (splitDot key).1 = decimal n ∧ ((splitDot key).2 == some (Signalk.bs "xml")) = x := by
  cases h with
  | plain => rw [splitDot_decimal]; exact ⟨rfl, rfl⟩
  | xml =>
    have : Signalk.bs ".xml" = 46 :: Signalk.bs "xml" := by decide +kernel
    rw [this, splitDot_suffix n _ (by decide +kernel)]
    exact ⟨rfl, by simp⟩
  | other ext h1 h2 =>
    rw [splitDot_suffix n _ h1]
    exact ⟨rfl, by simpa using h2⟩

/-- C71: a number below the table size selects the definition with that index. -/
theorem C71_by_index {tbl : List Pgn} {n : Nat} {d : Pgn} (hlen : tbl.length ≤ 2 ^ 31) (hd : tbl[n]? = some d)
    {key : Str} {x : Bool} (hk : KeyFor n key x) : messageDetails tbl key = .ok (d, x) := by
  have hn : n < tbl.length := (List.getElem?_eq_some_iff.mp hd).1
  obtain ⟨h1, h2⟩ := keyFor_split hk
  unfold messageDetails
  simp only [h1, h2, parseInt32_decimal (show n < 2 ^ 31 by omega)]
  rw [if_neg (by omega)]
  simp only [goIndex, Int.toNat_natCast, hd]
  rw [if_pos (by omega)]
  rfl

/-- C71: a larger number selects the first definition with that PGN, or definition 0 when the PGN is not
in the table. -/
theorem C71_by_pgn {tbl : List Pgn} {n : Nat} (hne : tbl ≠ []) (hn : tbl.length ≤ n) (hb : n < 2 ^ 31)
    {key : Str} {x : Bool} (hk : KeyFor n key x) :
    ∃ i d, messageDetails tbl key = .ok (d, x) ∧ tbl[i]? = some d ∧
      ((d.pgn = n ∧ ∀ k q, k < i → tbl[k]? = some q → q.pgn ≠ n) ∨ (i = 0 ∧ ∀ q ∈ tbl, q.pgn ≠ n)) := by
  obtain ⟨h1, h2⟩ := keyFor_split hk
  obtain ⟨i, p, g1, g2, g3⟩ := C33_first tbl n hne
  refine ⟨i, p, ?_, g2, g3⟩
  unfold messageDetails
  simp only [h1, h2, parseInt32_decimal hb]
  rw [if_pos (by omega)]
  have : ((n : Int).toNat % 2 ^ 32) = n := by simp; omega
  rw [this, g1]
  simp only [bind, Except.bind, g2]
  rfl

/-- C71: the last part of the details link of a listing entry leads to the definition listed. -/
theorem C71_link {tbl : List Pgn} (hlen : tbl.length ≤ 2 ^ 31) {i : Nat} {d : Pgn} (hd : tbl[i]? = some d) :
    (entryFor i d).details = Signalk.bs "/api/v1/messages/" ++ decimal i ∧
    messageDetails tbl (decimal i) = .ok (d, false) :=
  ⟨rfl, C71_by_index hlen hd .plain⟩

/-- C71: the handler panics exactly on negative numbers (and on every key when the table is empty). -/
theorem C71_panic_iff {tbl : List Pgn} (hne : tbl ≠ []) (key : Str) :
    (∃ p, messageDetails tbl key = .error p) ↔ parseInt32 (splitDot key).1 < 0 := by
  unfold messageDetails
  by_cases h1 : parseInt32 (splitDot key).1 ≥ (tbl.length : Int)
  · simp only [if_pos h1]
    obtain ⟨i, p, g1, g2, g3⟩ := C33_first tbl ((parseInt32 (splitDot key).1).toNat % 2 ^ 32) hne
    rw [g1]
    simp only [bind, Except.bind, g2, pure, Except.pure]
    constructor
    · rintro ⟨p, h⟩; cases h
    · intro h; omega
  · simp only [if_neg h1, goIndex]
    by_cases h2 : 0 ≤ parseInt32 (splitDot key).1
    · rw [if_pos h2]
      have : (parseInt32 (splitDot key).1).toNat < tbl.length := by omega
      rw [List.getElem?_eq_getElem this]
      simp only [bind, Except.bind, pure, Except.pure]
      constructor
      · rintro ⟨p, h⟩; cases h
      · intro h; omega
    · rw [if_neg h2]
      simp only [bind, Except.bind]
      exact ⟨fun _ => by omega, fun _ => ⟨_, rfl⟩⟩

/-- C71 is false of negative keys: a GET of message -1 panics, whatever the table. -/
theorem C71_false (tbl : List Pgn) : messageDetails tbl (Signalk.bs "-1") = .error .index := by
  have h : splitDot (Signalk.bs "-1") = (Signalk.bs "-1", none) := by decide +kernel
  have h' : parseInt32 (Signalk.bs "-1") = -1 := by decide +kernel
  unfold messageDetails
  simp only [h, h']
  rw [if_neg (by omega)]
  rfl

/-- C71, shipped table: a key that is the PGN of some definition selects the first definition with that
PGN (no PGN of the table is smaller than the table except 0, at index 0). -/
theorem C71_shipped {q : Pgn} (hq : q ∈ Table.pgnList) {key : Str} {x : Bool} (hk : KeyFor q.pgn key x) :
    ∃ i d, messageDetails Table.pgnList key = .ok (d, x) ∧ Table.pgnList[i]? = some d ∧ d.pgn = q.pgn ∧
      ∀ (k : Nat) (r : Pgn), k < i → Table.pgnList[k]? = some r → r.pgn ≠ q.pgn := by
  have hall : ∀ q ∈ Table.pgnList, (q.pgn = 0 ∨ Table.pgnList.length ≤ q.pgn) ∧ q.pgn < 2 ^ 31 := by
    decide +kernel
  have h0 : ∃ d, Table.pgnList[0]? = some d ∧ d.pgn = 0 := ⟨_, rfl, by decide +kernel⟩
  have hlen : Table.pgnList.length ≤ 2 ^ 31 := by decide +kernel
  obtain ⟨h1, h2⟩ := hall q hq
  rcases h1 with h1 | h1
  · obtain ⟨d, hd, hp⟩ := h0
    rw [h1] at hk
    exact ⟨0, d, C71_by_index hlen hd hk, hd, by rw [hp, h1], fun k r hk => absurd hk (Nat.not_lt_zero k)⟩
  · obtain ⟨i, d, g1, g2, g3⟩ := C71_by_pgn (by intro h; rw [h] at hq; cases hq) h1 h2 hk
    rcases g3 with ⟨g3, g4⟩ | ⟨_, g4⟩
    · exact ⟨i, d, g1, g2, g3, g4⟩
    · exact absurd rfl (g4 q hq)

example : KeyFor 127245 (Signalk.bs "127245.xml") true ∧ Table.p76 ∈ Table.pgnList ∧ Table.p76.pgn = 127245 := by
  refine ⟨?_, ?_, by decide +kernel⟩
  · have : Signalk.bs "127245.xml" = decimal 127245 ++ Signalk.bs ".xml" := by decide +kernel
    rw [this]; exact .xml
  · decide +kernel

end Argo.Main
