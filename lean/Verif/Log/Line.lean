import Verif.Log.Text

set_option autoImplicit false

/-! # Reading a line of the log -/

namespace Argo.Log

open Argo
open Argo.Nmea2k (Val Pgn DataMap Parsed)
open Argo.Signalk (Str bs Time Stamp)
open Argo.Json (pad fracText ascii isDigit bs_append dec_shape)
open Argo.Float

/-! ## Specification: how a line is read -/

/-- The text before the first `c` and the text after it. -/
def upTo (c : Byte) (s : Str) : Str × Str := (s.takeWhile (· ≠ c), (s.dropWhile (· ≠ c)).drop 1)

/-- What a line says. -/
structure Line where
  stamp : Str
  priority : ℕ
  source : ℕ
  destination : ℕ
  pgn : ℕ
  description : Str
  /-- number, name and text of every entry -/
  entries : List (ℕ × Str × Str)

/-- ` 3.Name = text` -/
def readEntry (s : Str) : ℕ × Str × Str :=
  let k := upTo 46 (s.drop 1)
  let nv := upTo 61 k.2
  (digitsVal k.1, nv.1.dropLast, nv.2.drop 1)

/-- The description ends at a colon before a blank and a digit. -/
def cutHead : Str → Str × Str
  | [] => ([], [])
  | b :: r => if b = 58 ∧ r.head? = some 32 ∧ (r.drop 1).head?.any isDigit = true then ([], r) else (b :: (cutHead r).1, (cutHead r).2)

/-- `stamp priority source destination pgn description: 0.Name = text; 1.Name = text` -/
def readLine (s : Str) : Line :=
  let w1 := upTo 32 s
  let w2 := upTo 32 w1.2
  let w3 := upTo 32 w2.2
  let w4 := upTo 32 w3.2
  let w5 := upTo 32 w4.2
  let d := cutHead w5.2
  ⟨w1.1, digitsVal w2.1, digitsVal w3.1, digitsVal w4.1, digitsVal w5.1, d.1,
    if d.2 = [] then [] else (d.2.splitOn 59).map readEntry⟩

/-! ## Names -/

/-- A colon is followed by a blank and something that is not a digit. -/
def descOk : Str → Bool
  | [] => true
  | b :: r => (b != 58 || (r.head? == some 32 && (r.drop 1).head?.any fun d => !isDigit d)) && descOk r

def nameOk (s : Str) : Bool := s.all fun b => b != 61 && b != 59 && b != 10

theorem table_names : ∀ d ∈ Nmea2k.Table.pgnList, descOk (bs d.description) = true ∧ (bs d.description).all (fun b => b != 59 && b != 10) = true ∧
    ∀ f ∈ d.fieldList, nameOk (bs f.name) = true := by
  have : Nmea2k.Table.pgnList.all (fun d => descOk (bs d.description) && (bs d.description).all (fun b => b != 59 && b != 10) &&
      d.fieldList.all fun f => nameOk (bs f.name)) = true := by decide +kernel
  intro d hd
  have h := List.all_eq_true.mp this d hd
  simp only [Bool.and_eq_true] at h
  exact ⟨h.1.1, h.1.2, List.all_eq_true.mp h.2⟩

/-! ## Reading -/

theorem upTo_append {c : Byte} {a : Str} (h : c ∉ a) (r : Str) : upTo c (a ++ c :: r) = (a, r) := by
  have ha : ∀ b ∈ a, decide (b ≠ c) = true := by
    intro b hb
    simp only [ne_eq, decide_not, Bool.not_eq_eq_eq_not, Bool.not_true, decide_eq_false_iff_not]
    rintro rfl; exact h hb
  unfold upTo
  rw [List.takeWhile_append_of_pos ha, List.dropWhile_append_of_pos ha, List.takeWhile_cons_of_neg (by simp),
    List.dropWhile_cons_of_neg (by simp), List.append_nil]
  rfl

theorem cutHead_end {d : Str} (h : descOk d = true) : cutHead d = (d, []) := by
  induction d with
  | nil => rfl
  | cons b d ih =>
    simp only [descOk, Bool.and_eq_true, Bool.or_eq_true, bne_iff_ne, ne_eq, beq_iff_eq] at h
    rw [cutHead, ih h.2, if_neg]
    rintro ⟨rfl, _, h3⟩
    rcases h.1 with h1 | ⟨_, h1⟩
    · exact h1 rfl
    · cases hh : (d.drop 1).head? with
      | none => rw [hh] at h3; cases h3
      | some x => rw [hh] at h1 h3; simp only [Option.any_some] at h1 h3; rw [h3] at h1; cases h1

theorem cutHead_append {d : Str} (h : descOk d = true) {x : Byte} (hx : isDigit x = true) (r : Str) :
    cutHead (d ++ 58 :: 32 :: x :: r) = (d, 32 :: x :: r) := by
  induction d with
  | nil => rw [List.nil_append, cutHead, if_pos ⟨rfl, rfl, by simpa using hx⟩]
  | cons b d ih =>
    simp only [descOk, Bool.and_eq_true, Bool.or_eq_true, bne_iff_ne, ne_eq, beq_iff_eq] at h
    rw [List.cons_append, cutHead, ih h.2, if_neg]
    rintro ⟨rfl, _, h3⟩
    rcases h.1 with h1 | ⟨h0, h1⟩
    · exact h1 rfl
    · match d, h0, h1, h3 with
      | _ :: y :: d', _, h1, h3 =>
        simp only [List.drop_succ_cons, List.drop_zero, List.head?_cons, Option.any_some, List.cons_append] at h1 h3
        rw [h3] at h1; cases h1

theorem digits_no {c : Byte} (hc : isDigit c = false) (n : ℕ) : c ∉ natText n := by
  intro h
  have := nat_digits n c h
  rw [hc] at this; cases this

/-- ` k.Name = text` -/
def body (here : Place) (l : ℕ × String × Val) : Str :=
  32 :: natText l.1 ++ 46 :: (bs l.2.1 ++ 32 :: 61 :: 32 :: valueText here l.2.2)

theorem readEntry_body (here : Place) (l : ℕ × String × Val) (h : 61 ∉ bs l.2.1) :
    readEntry (body here l) = (l.1, bs l.2.1, valueText here l.2.2) := by
  have e1 : upTo 46 ((body here l).drop 1) = (natText l.1, bs l.2.1 ++ 32 :: 61 :: 32 :: valueText here l.2.2) :=
    upTo_append (digits_no (by decide) _) _
  have e2 : upTo 61 (bs l.2.1 ++ 32 :: 61 :: 32 :: valueText here l.2.2) = (bs l.2.1 ++ [32], 32 :: valueText here l.2.2) := by
    have := upTo_append (c := 61) (a := bs l.2.1 ++ [32]) (by simp [h]) (32 :: valueText here l.2.2)
    simpa using this
  unfold readEntry
  simp only [e1, e2]
  refine Prod.ext ?_ (Prod.ext ?_ rfl)
  · exact digitsVal_nat _
  · simp

/-! ## Characters of values -/

/-- A byte that numbers, times and brackets do not have. -/
def Odd (c : Byte) : Prop := isDigit c = false ∧ c ∉ bs " -.+:[]nilT="

theorem odd_ascii {c : Byte} (h : Odd c) {l : List Char} (hl : ∀ x ∈ l, x.isDigit = true ∨ x ∈ [' ', '-', '.', '+', ':', 'T']) : c ∉ ascii l := by
  intro hc
  obtain ⟨x, hx, rfl⟩ := List.mem_map.mp hc
  rcases hl x hx with hd | hd
  · have h1 := h.1
    have : x.toNat - 48 < 10 ∧ 48 ≤ x.toNat := by
      unfold Char.isDigit at hd
      simp only [Bool.and_eq_true, decide_eq_true_eq] at hd
      have a1 : 48 ≤ x.toNat := hd.1
      have a2 : x.toNat ≤ 57 := hd.2
      omega
    have key : ∀ n : Fin 10, isDigit (UInt8.ofNat (48 + n.val)) = true := by decide
    have := key ⟨x.toNat - 48, this.1⟩
    simp only at this
    rw [show 48 + (x.toNat - 48) = x.toNat by omega] at this
    rw [this] at h1; cases h1
  · have key : ∀ x ∈ [' ', '-', '.', '+', ':', 'T'], UInt8.ofNat x.toNat ∈ bs " -.+:[]nilT=" := by decide +kernel
    exact h.2 (key x hd)

theorem pad_chars (w n : ℕ) : ∀ x ∈ pad w n, x.isDigit = true := by
  intro x hx
  unfold pad at hx
  rcases List.mem_append.mp hx with hx | hx
  · rw [(List.mem_replicate.mp hx).2]; decide
  · exact Json.dec_digits n x hx

theorem frac_chars (ns : ℕ) : ∀ x ∈ fracText ns, x.isDigit = true ∨ x ∈ [' ', '-', '.', '+', ':', 'T'] := by
  intro x hx
  unfold fracText at hx
  split at hx
  · cases hx
  · rcases List.mem_cons.mp hx with rfl | hx
    · right; decide
    · left
      rw [List.mem_reverse] at hx
      exact pad_chars 9 ns x (List.mem_reverse.mp ((List.dropWhile_sublist _).subset hx))

theorem dateClock_mem (sep : Char) (st : Stamp) {x : Char} (hx : x ∈ dateClock sep st) : x.isDigit = true ∨ x ∈ ['-', ':'] ∨ x = sep := by
  unfold dateClock yearText at hx
  simp only [List.append_assoc, List.cons_append, List.mem_append, List.mem_cons] at hx
  rcases hx with hx | hx | hx | hx | hx | hx | hx | hx | hx | hx | hx | hx
  · split at hx
    · right; left; rw [List.mem_singleton.mp hx]; simp
    · cases hx
  · exact Or.inl (pad_chars _ _ x hx)
  · right; left; rw [hx]; simp
  · exact Or.inl (pad_chars _ _ x hx)
  · right; left; rw [hx]; simp
  · exact Or.inl (pad_chars _ _ x hx)
  · exact Or.inr (Or.inr hx)
  · exact Or.inl (pad_chars _ _ x hx)
  · right; left; rw [hx]; simp
  · exact Or.inl (pad_chars _ _ x hx)
  · right; left; rw [hx]; simp
  · exact Or.inl (pad_chars _ _ x hx)

theorem timeString_no {c : Byte} (h : Odd c) (st : Stamp) (ns : ℕ) {zone : Str} (hz : c ∉ zone) : c ∉ timeString st ns zone := by
  unfold timeString
  rw [List.mem_append]
  rintro (hc | hc)
  · revert hc
    apply odd_ascii h
    intro x hx
    simp only [List.append_assoc, List.mem_append, List.mem_cons, List.cons_append] at hx
    rcases hx with hx | hx | rfl | hx | rfl | hx
    · rcases dateClock_mem ' ' st hx with h | h | h
      · exact Or.inl h
      · right
        simp only [List.mem_cons, List.not_mem_nil, or_false] at h ⊢
        rcases h with h | h <;> simp [h]
      · right; rw [h]; simp
    · exact frac_chars ns x hx
    · right; decide
    · unfold offsetText at hx
      rcases List.mem_cons.mp hx with rfl | hx
      · right; split <;> decide
      · rcases List.mem_append.mp hx with hx | hx <;> exact Or.inl (pad_chars _ _ x hx)
    · right; decide
    · cases hx
  · exact hz hc

theorem odd_ne {c : Byte} (h : Odd c) {b : Byte} (hb : b ∈ bs " -.+:[]nilT=") : c ≠ b := by rintro rfl; exact h.2 hb

theorem fixed6_no {c : Byte} (h : Odd c) (x : ℚ) : c ∉ fixed6 x := by
  unfold fixed6
  simp only [List.mem_append, List.mem_cons]
  rintro ((hc | hc) | rfl | hc | hc)
  · split at hc
    · exact odd_ne h (by decide +kernel) (List.mem_singleton.mp hc)
    · cases hc
  · exact digits_no h.1 _ hc
  · exact h.2 (by decide +kernel)
  · have := zeros_digits _ _ hc
    rw [h.1] at this; cases this
  · exact digits_no h.1 _ hc

theorem mem_intercalate {c : Byte} {sep : Str} {l : List Str} (h : c ∈ sep.intercalate l) : c ∈ sep ∨ ∃ t ∈ l, c ∈ t := by
  induction l with
  | nil => cases h
  | cons t l ih =>
    cases l with
    | nil =>
      rw [List.intercalate_singleton] at h
      exact Or.inr ⟨t, by simp, h⟩
    | cons t' l =>
      rw [List.intercalate_cons_cons] at h
      rcases List.mem_append.mp h with h | h
      · rcases List.mem_append.mp h with h | h
        · exact Or.inr ⟨t, by simp, h⟩
        · exact Or.inl h
      · rcases ih h with h | ⟨t'', ht, h⟩
        · exact Or.inl h
        · exact Or.inr ⟨t'', List.mem_cons_of_mem _ ht, h⟩

theorem bytes_no {c : Byte} (h : Odd c) (l : List Byte) : c ∉ bytesText l := by
  unfold bytesText
  simp only [List.mem_append, List.mem_singleton]
  rintro ((rfl | hc) | rfl)
  · exact h.2 (by decide +kernel)
  · rcases mem_intercalate hc with hc | ⟨t, ht, hc⟩
    · exact odd_ne h (by decide +kernel) (List.mem_singleton.mp hc)
    · obtain ⟨b, _, rfl⟩ := List.mem_map.mp ht
      exact digits_no h.1 _ hc
  · exact h.2 (by decide +kernel)

/-- The bytes a value puts into the line that are not of argo's making: its characters, or the name of the zone. -/
def foreign (here : Place) : Val → Str
  | .text s => bs s
  | .chars b => b
  | .unix s => here.zone (.unix s)
  | .clock h m s ns => here.zone (.clock h m s ns)
  | _ => []

theorem value_no {here : Place} {c : Byte} (h : Odd c) {v : Val} : c ∈ valueText here v ↔ c ∈ foreign here v := by
  cases v with
  | nil =>
    simp only [valueText, foreign, List.not_mem_nil, iff_false]
    intro hc
    have key : ∀ b ∈ bs "nil", b ∈ bs " -.+:[]nilT=" := by decide +kernel
    exact h.2 (key c hc)
  | u64 n => simp only [valueText, foreign, List.not_mem_nil, iff_false]; exact digits_no h.1 n
  | sint w n =>
    simp only [valueText, foreign, List.not_mem_nil, iff_false]
    cases n with
    | ofNat n => exact digits_no h.1 n
    | negSucc n =>
      intro hc
      have e : toString (Int.negSucc n) = "-" ++ toString (n + 1) := rfl
      rw [intText, e, bs_append] at hc
      rcases List.mem_append.mp hc with hc | hc
      · have h1 : bs "-" = [45] := by decide +kernel
        rw [h1] at hc
        exact odd_ne h (by decide +kernel) (List.mem_singleton.mp hc)
      · exact digits_no h.1 _ hc
  | f64 n r => simp only [valueText, foreign, List.not_mem_nil, iff_false]; exact fixed6_no h _
  | f32div n d => simp only [valueText, foreign, List.not_mem_nil, iff_false]; exact fixed6_no h _
  | f64div n d => simp only [valueText, foreign, List.not_mem_nil, iff_false]; exact fixed6_no h _
  | unix s =>
    simp only [valueText, foreign]
    exact ⟨fun hc => by by_contra hz; exact timeString_no h _ _ hz hc, fun hc => List.mem_append_right _ hc⟩
  | clock a m s ns =>
    simp only [valueText, foreign]
    exact ⟨fun hc => by by_contra hz; exact timeString_no h _ _ hz hc, fun hc => List.mem_append_right _ hc⟩
  | text s => rfl
  | chars b => rfl
  | bytes b => simp only [valueText, foreign, List.not_mem_nil, iff_false]; exact bytes_no h b

/-! ## The line -/

/-- The heading. -/
def heading (p : Parsed) (at_ : Time × ℕ) (description : String) : Str :=
  receipt 'T' at_ ++ 32 :: (natText p.header.priority.toNat ++ 32 :: (natText p.header.source.toNat ++ 32 ::
    (natText p.header.destination.toNat ++ 32 :: (natText p.header.pgn ++ 32 :: bs description))))

/-- The line: the heading, and the entries if there are any. -/
def line (here : Place) (p : Parsed) (at_ : Time × ℕ) (description : String) (ls : List (ℕ × String × Val)) : Str :=
  heading p at_ description ++ if ls = [] then [] else 58 :: ([59] : Str).intercalate (ls.map (body here))

theorem textLoop_eq (here : Place) (pp : Pgn) (dm : DataMap) (verbose : Bool) (n : ℕ) : ∀ (i : ℕ) (j : ℤ) (s : Str),
    textLoop here pp dm verbose n i j s =
      match Nmea2k.printLoop pp dm verbose n i j with
      | .ok ls => .ok (s ++ ls.flatMap fun l => body here l ++ [59])
      | .error e => .error e := by
  have hb : ∀ (i : ℕ) (name : String) (v : Val) (s : Str),
      s ++ bs " " ++ natText i ++ bs "." ++ bs name ++ bs " = " ++ valueText here v ++ bs ";" = s ++ (body here (i, name, v) ++ [59]) := by
    intro i name v s
    rw [show bs " " = [32] by decide +kernel, show bs "." = [46] by decide +kernel, show bs " = " = [32, 61, 32] by decide +kernel,
      show bs ";" = [59] by decide +kernel]
    simp [body]
  have hn : ∀ (i : ℕ) (name : String) (s : Str),
      s ++ bs " " ++ natText i ++ bs "." ++ bs name ++ bs " = nil;" = s ++ (body here (i, name, .nil) ++ [59]) := by
    intro i name s
    rw [← hb, show bs " = nil;" = bs " = " ++ bs "nil" ++ bs ";" by decide +kernel]
    simp [valueText]
  induction n with
  | zero => intro i j s; simp [textLoop, Nmea2k.printLoop]
  | succ n ih =>
    intro i j s
    rw [textLoop, Nmea2k.printLoop]
    simp only [bind, Except.bind, pure, Except.pure]
    by_cases h1 : dm.get i ≠ .nil
    · rw [if_pos h1, if_pos (Or.inl h1)]
      cases Nmea2k.goIndex pp.fieldList j with
      | error e => rfl
      | ok f =>
        simp only
        rw [ih, hb]
        cases Nmea2k.printLoop pp dm verbose n (i + 1) _ with
        | error e => rfl
        | ok ls => simp
    · rw [if_neg h1]
      have h1 : dm.get i = .nil := by simpa using h1
      cases verbose with
      | false =>
        rw [if_neg (show ¬ (false = true) by simp), if_neg (show ¬ (dm.get i ≠ .nil ∨ false = true) by simp [h1])]
        rw [ih]
        cases Nmea2k.printLoop pp dm false n (i + 1) _ with
        | error e => rfl
        | ok ls => simp
      | true =>
        rw [if_pos rfl, if_pos (Or.inr rfl)]
        cases Nmea2k.goIndex pp.fieldList j with
        | error e => rfl
        | ok f =>
          simp only
          rw [ih, hn, h1]
          cases Nmea2k.printLoop pp dm true n (i + 1) _ with
          | error e => rfl
          | ok ls => simp

theorem join_semi (l : List Str) : ∀ h : Str, (h ++ 58 :: l.flatMap (· ++ [59])).dropLast =
    h ++ if l = [] then [] else 58 :: ([59] : Str).intercalate l := by
  intro h
  have key : ∀ l : List Str, l ≠ [] → l.flatMap (· ++ [59]) = ([59] : Str).intercalate l ++ [59] := by
    intro l
    induction l with
    | nil => intro h; exact absurd rfl h
    | cons t l ih =>
      intro _
      cases l with
      | nil => simp
      | cons t' l =>
        rw [List.flatMap_cons, ih (by simp), List.intercalate_cons_cons]
        simp
  by_cases hl : l = []
  · subst hl; simp
  · rw [if_neg hl, key l hl, ← List.cons_append, ← List.append_assoc, List.dropLast_concat]

theorem printText_eq (here : Place) (tbl : List Pgn) (p : Parsed) (at_ : Time × ℕ) (verbose : Bool) :
    printText here tbl p at_ verbose =
      match Nmea2k.print tbl p verbose with
      | .ok (d, ls) => .ok (line here p at_ d ls)
      | .error e => .error e := by
  unfold printText Nmea2k.print
  simp only [bind, Except.bind, pure, Except.pure]
  cases Nmea2k.goIndex tbl p.index with
  | error e => rfl
  | ok pp =>
    simp only
    rw [textLoop_eq]
    cases Nmea2k.printLoop pp p.data verbose p.data.length 0 0 with
    | error e => rfl
    | ok ls =>
      simp only
      rw [show bs " " = [32] by decide +kernel, show bs ":" = [58] by decide +kernel]
      refine congrArg Except.ok ?_
      have := join_semi (ls.map (body here)) (heading p at_ pp.description)
      simp only [List.map_eq_nil_iff] at this
      unfold line
      rw [← this, List.flatMap_map]
      simp [heading]

theorem receipt_no {c : Byte} (sep : Char) (hs : sep ∈ ['-', 'T']) (at_ : Time × ℕ) (h : isDigit c = false ∧ c ∉ bs "-.:T") : c ∉ receipt sep at_ := by
  unfold receipt
  intro hc
  obtain ⟨x, hx, rfl⟩ := List.mem_map.mp hc
  have hx : x.isDigit = true ∨ x ∈ ['-', '.', ':', 'T'] := by
    rcases List.mem_append.mp hx with hx | hx
    · rcases dateClock_mem sep at_.1.stamp hx with h | h | h
      · exact Or.inl h
      · right
        simp only [List.mem_cons, List.not_mem_nil, or_false] at h ⊢
        rcases h with h | h <;> simp [h]
      · right
        simp only [List.mem_cons, List.not_mem_nil, or_false] at hs ⊢
        rcases hs with hs | hs <;> simp [h, hs]
    · rcases List.mem_cons.mp hx with hx | hx
      · right; rw [hx]; simp
      · exact Or.inl (pad_chars _ _ x hx)
  rcases hx with hx | hx
  · have h1 := h.1
    have : x.toNat - 48 < 10 ∧ 48 ≤ x.toNat := by
      unfold Char.isDigit at hx
      simp only [Bool.and_eq_true, decide_eq_true_eq] at hx
      have a1 : 48 ≤ x.toNat := hx.1
      have a2 : x.toNat ≤ 57 := hx.2
      omega
    have key : ∀ n : Fin 10, isDigit (UInt8.ofNat (48 + n.val)) = true := by decide
    have := key ⟨x.toNat - 48, this.1⟩
    simp only at this
    rw [show 48 + (x.toNat - 48) = x.toNat by omega] at this
    rw [this] at h1; cases h1
  · have key : ∀ x ∈ ['-', '.', ':', 'T'], UInt8.ofNat x.toNat ∈ bs "-.:T" := by decide +kernel
    exact h.2 (key x hx)

/-- A line is read as what it was made of. -/
theorem readLine_line {here : Place} {p : Parsed} {at_ : Time × ℕ} {description : String} {ls : List (ℕ × String × Val)}
    (hd : descOk (bs description) = true) (hn : ∀ l ∈ ls, nameOk (bs l.2.1) = true) (hv : ∀ l ∈ ls, 59 ∉ foreign here l.2.2) :
    readLine (line here p at_ description ls) = ⟨receipt 'T' at_, p.header.priority.toNat, p.header.source.toNat,
      p.header.destination.toNat, p.header.pgn, bs description, ls.map fun l => (l.1, bs l.2.1, valueText here l.2.2)⟩ := by
  have hodd : Odd 59 := ⟨by decide, by decide +kernel⟩
  have hbody : ∀ t ∈ ls.map (body here), (59 : Byte) ∉ t := by
    intro t ht
    obtain ⟨l, hl, rfl⟩ := List.mem_map.mp ht
    unfold body
    simp only [List.cons_append, List.mem_cons, List.mem_append]
    have hne := List.all_eq_true.mp (hn l hl)
    rintro (h | h | h | h | h | h | h | h)
    · cases h
    · exact digits_no (by decide) _ h
    · cases h
    · have := hne _ h; revert this; decide
    · cases h
    · cases h
    · cases h
    · exact hv l hl ((value_no hodd).mp h)
  set tail : Str := if ls = [] then [] else 58 :: ([59] : Str).intercalate (ls.map (body here)) with htail
  have w1 : upTo 32 (line here p at_ description ls) = (receipt 'T' at_, natText p.header.priority.toNat ++ 32 :: (natText p.header.source.toNat ++ 32 ::
      (natText p.header.destination.toNat ++ 32 :: (natText p.header.pgn ++ 32 :: (bs description ++ tail))))) := by
    have := upTo_append (receipt_no (c := 32) 'T' (by decide) at_ ⟨by decide, by decide +kernel⟩) (natText p.header.priority.toNat ++ 32 :: (natText p.header.source.toNat ++ 32 ::
      (natText p.header.destination.toNat ++ 32 :: (natText p.header.pgn ++ 32 :: (bs description ++ tail)))))
    unfold line heading
    rw [← htail]
    simpa using this
  have h32 : isDigit 32 = false := by decide
  have hcut : cutHead (bs description ++ tail) = (bs description, tail.drop 1) := by
    rw [htail]
    cases ls with
    | nil => rw [if_pos rfl, List.append_nil]; exact cutHead_end hd
    | cons l ls =>
      rw [if_neg (by simp), List.map_cons]
      obtain ⟨b, r, hb, hb1, _⟩ := dec_shape l.1
      have hfirst : ∃ r', ([59] : Str).intercalate (body here l :: ls.map (body here)) = 32 :: b :: r' := by
        have hb' : natText l.1 = b :: r := hb
        cases ls with
        | nil => exact ⟨_, by rw [List.map_nil, List.intercalate_singleton, body, hb']; rfl⟩
        | cons l' ls => exact ⟨_, by rw [List.map_cons, List.intercalate_cons_cons, body, hb']; rfl⟩
      obtain ⟨r', hr'⟩ := hfirst
      rw [hr']
      exact cutHead_append hd hb1 r'
  have w2 : ∀ (n : ℕ) (r : Str), upTo 32 (natText n ++ 32 :: r) = (natText n, r) := fun n r => upTo_append (digits_no h32 n) r
  have hdv : ∀ n : ℕ, digitsVal (natText n) = n := digitsVal_nat
  unfold readLine
  rw [w1]
  dsimp only
  rw [w2]
  dsimp only
  rw [w2]
  dsimp only
  rw [w2]
  dsimp only
  rw [w2]
  dsimp only
  rw [hcut, hdv, hdv, hdv, hdv]
  dsimp only
  congr 1
  rw [htail]
  cases ls with
  | nil => rfl
  | cons l ls =>
    rw [if_neg (show ¬ (l :: ls = []) by simp), List.drop_succ_cons, List.drop_zero, if_neg, List.splitOn_intercalate _ hbody (by simp), List.map_map]
    · apply List.map_congr_left
      intro l' hl'
      apply readEntry_body
      intro h
      have := List.all_eq_true.mp (hn l' hl') _ h
      revert this; decide
    · intro h
      cases ls with
      | nil => rw [List.map_cons, List.map_nil, List.intercalate_singleton, body] at h; cases h
      | cons l' ls => rw [List.map_cons, List.map_cons, List.intercalate_cons_cons, body] at h; cases h

end Argo.Log
