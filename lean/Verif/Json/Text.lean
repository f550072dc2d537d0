import Verif.Json.Props
import Verif.Signalk.Calendar

set_option autoImplicit false

/-! # Texts in JSON: decimal numbers, instants (RFC 3339) and bytes (base64)

Models of what `time.Time.MarshalJSON` (RFC3339Nano) and the encoding of `[]byte` (base64.StdEncoding) make,
and their specifications. -/

namespace Argo.Json

open Argo
open Argo.Signalk (Str bs Time Stamp civil)

/-! ## Characters and bytes -/

theorem bs_eq (s : String) : bs s = s.toList.flatMap String.utf8EncodeChar := by
  unfold bs
  rw [← String.utf8Encode_toList]
  simp [List.utf8Encode]

/-- The characters of the bytes of a text are the text. -/
theorem chars_bs (s : String) : chars (bs s) = s.toList := by
  rw [bs_eq, chars_utf8]

/-- An ASCII text as bytes. -/
def ascii (l : List Char) : List Byte := l.map (fun c => UInt8.ofNat c.toNat)

theorem ascii_eq {l : List Char} (h : ∀ c ∈ l, c.toNat < 128) : ascii l = l.flatMap String.utf8EncodeChar := by
  induction l with
  | nil => rfl
  | cons c l ih =>
    have hc := h c (by simp)
    have e : String.utf8EncodeChar c = [UInt8.ofNat c.toNat] := by
      have hb : (UInt8.ofNat c.toNat).toNat = c.toNat := by simp; omega
      have := encode_ascii (b := UInt8.ofNat c.toNat) (by omega)
      rwa [hb, Char.ofNat_toNat] at this
    rw [List.flatMap_cons, e, ← ih (fun x hx => h x (List.mem_cons_of_mem _ hx))]
    rfl

theorem chars_ascii {l : List Char} (h : ∀ c ∈ l, c.toNat < 128) : chars (ascii l) = l := by
  rw [ascii_eq h, chars_utf8]

/-! ## Decimal numbers -/

theorem digit_ascii {c : Char} (h : c.isDigit = true) : 48 ≤ c.toNat ∧ c.toNat ≤ 57 := by
  unfold Char.isDigit at h
  simp only [ge_iff_le, Bool.and_eq_true, decide_eq_true_eq] at h
  exact ⟨h.1, h.2⟩

theorem dec_digits (n : Nat) : ∀ c ∈ (toString n).toList, c.isDigit = true := by
  intro c hc
  have : (toString n).toList = Nat.toDigits 10 n := Nat.toList_repr
  rw [this] at hc
  exact Nat.isDigit_of_mem_toDigits (by omega) (by omega) hc

theorem dec_bytes (n : Nat) : bs (toString n) = ascii (toString n).toList := by
  rw [bs_eq, ascii_eq]
  intro c hc
  have := digit_ascii (dec_digits n c hc)
  omega

/-- The first digit of a positive number is not 0. -/
theorem toDigits_head (n : Nat) (hn : 0 < n) : ∃ c l, Nat.toDigits 10 n = c :: l ∧ c ≠ '0' := by
  induction n using Nat.strongRecOn with
  | ind n ih =>
    by_cases h : n < 10
    · rw [Nat.toDigits_of_lt_base h]
      refine ⟨_, [], rfl, ?_⟩
      have key : ∀ n : Fin 10, 0 < n.val → n.val.digitChar ≠ '0' := by decide
      exact key ⟨n, h⟩ hn
    · rw [Nat.toDigits_of_base_le (by omega) (by omega)]
      obtain ⟨c, l, hc, h0⟩ := ih (n / 10) (by omega) (by omega)
      exact ⟨c, l ++ [(n % 10).digitChar], by rw [hc]; rfl, h0⟩

theorem isDigit_ascii {c : Char} (h : c.isDigit = true) : isDigit (UInt8.ofNat c.toNat) = true := by
  have := digit_ascii h
  unfold isDigit
  have hb : (UInt8.ofNat c.toNat).toNat = c.toNat := by simp; omega
  rw [hb]
  simpa using this

theorem digits_all {l : List Byte} (h : ∀ b ∈ l, isDigit b = true) : digits l = (l, []) := by
  unfold digits
  have h1 : l.dropWhile isDigit = [] := by
    induction l with
    | nil => rfl
    | cons b l ih =>
      rw [List.dropWhile_cons_of_pos (h b (by simp))]
      exact ih (fun x hx => h x (List.mem_cons_of_mem _ hx))
  have h2 := List.takeWhile_append_dropWhile (p := isDigit) (l := l)
  rw [h1, List.append_nil] at h2
  rw [h1, h2]

theorem number_digits {b : Byte} {l : List Byte} (hb : isDigit b = true) (hl : ∀ x ∈ l, isDigit x = true)
    (h0 : b ≠ 48 ∨ l = []) : intPart (b :: l) = some (b :: l, []) := by
  unfold intPart
  simp only
  by_cases h : b = 48
  · rcases h0 with h0 | rfl
    · exact absurd h h0
    · rw [if_pos h]
  · rw [if_neg h, if_pos hb, digits_all hl]

theorem dec_shape (n : Nat) : ∃ b l, bs (toString n) = b :: l ∧ isDigit b = true ∧ (∀ x ∈ l, isDigit x = true) ∧
    (b ≠ 48 ∨ l = []) := by
  have hd := dec_digits n
  have ht : (toString n).toList = Nat.toDigits 10 n := Nat.toList_repr
  rw [dec_bytes]
  by_cases hn : n = 0
  · subst hn
    refine ⟨48, [], by decide +kernel, by decide, by simp, Or.inr rfl⟩
  · obtain ⟨c, l, hc, h0⟩ := toDigits_head n (by omega)
    rw [ht, hc] at hd ⊢
    refine ⟨_, _, rfl, isDigit_ascii (hd c (by simp)), ?_, Or.inl ?_⟩
    · intro x hx
      obtain ⟨y, hy, rfl⟩ := List.mem_map.mp hx
      exact isDigit_ascii (hd y (List.mem_cons_of_mem _ hy))
    · intro he
      have := digit_ascii (hd c (by simp))
      have hb : (UInt8.ofNat c.toNat).toNat = c.toNat := by simp; omega
      have he : UInt8.ofNat c.toNat = 48 := he
      have : c.toNat = 48 := by rw [← hb, he]; rfl
      exact h0 (by rw [← Char.ofNat_toNat c, this])

theorem isDigit_ne_minus {b : Byte} (h : isDigit b = true) : b ≠ 45 := by
  rintro rfl; revert h; decide

theorem isNumber_nat (n : Nat) : IsNumber (bs (toString n)) := by
  obtain ⟨b, l, e, hb, hl, h0⟩ := dec_shape n
  rw [e]
  unfold IsNumber number
  simp only [if_neg (isDigit_ne_minus hb), number_digits hb hl h0]
  simp [fracPart, expPart]

theorem bs_append (a b : String) : bs (a ++ b) = bs a ++ bs b := by
  rw [bs_eq, bs_eq, bs_eq, String.toList_append, List.flatMap_append]

theorem isNumber_int (i : Int) : IsNumber (bs (toString i)) := by
  cases i with
  | ofNat n => exact isNumber_nat n
  | negSucc n =>
    have e : toString (Int.negSucc n) = "-" ++ toString (n + 1) := rfl
    rw [e, bs_append]
    have h1 : bs "-" = [45] := by decide +kernel
    obtain ⟨b, l, e2, hb, hl, h0⟩ := dec_shape (n + 1)
    rw [h1, e2]
    unfold IsNumber number
    simp only [List.cons_append, List.nil_append, if_true, number_digits hb hl h0]
    simp [fracPart, expPart]

/-! ## Instants -/

/-- Go `appendInt`: at least `w` digits. -/
def pad (w n : Nat) : List Char := List.replicate (w - (toString n).toList.length) '0' ++ (toString n).toList

/-- The layout element `.999999999`: the fraction without trailing zeros, nothing if it is zero. -/
def fracText (ns : Nat) : List Char :=
  if ns = 0 then [] else '.' :: ((pad 9 ns).reverse.dropWhile (fun c => decide (c = '0'))).reverse

/-- The layout element `Z07:00`. -/
def zoneText (off : Int) : List Char :=
  if off = 0 then ['Z']
  else (if off.tdiv 60 < 0 then '-' else '+') ::
    (pad 2 ((off.tdiv 60).natAbs / 60) ++ ':' :: pad 2 ((off.tdiv 60).natAbs % 60))

/-- Go `t.Format(time.RFC3339Nano)` of a year from 0 to 9999: `2006-01-02T15:04:05.999999999Z07:00`. -/
def rfc3339 (st : Stamp) (ns : Nat) : List Char :=
  pad 4 st.year.toNat ++ '-' :: pad 2 st.month.toNat ++ '-' :: pad 2 st.day.toNat ++ 'T' :: pad 2 st.hour.toNat ++
    ':' :: pad 2 st.minute.toNat ++ ':' :: pad 2 st.second.toNat ++ fracText ns ++ zoneText st.off

/-- Go `time.Time.MarshalJSON`: an error if the year is outside 0 to 9999. -/
def timeText (t : Time) (ns : Nat) : Option (List Char) :=
  if 0 ≤ t.stamp.year ∧ t.stamp.year ≤ 9999 then some (rfc3339 t.stamp ns) else none

/-! ### Specification (RFC 3339) -/

/-- `w` decimal digits with the value `n`. -/
def Decimal (w n : Nat) (l : List Char) : Prop :=
  l.length = w ∧ (∀ c ∈ l, c.isDigit = true) ∧ Nat.ofDigitChars 10 l 0 = n

/-- Nothing for 0, else a point and up to nine digits whose value as a fraction of a second is `ns`
nanoseconds. -/
def Fraction (ns : Nat) (f : List Char) : Prop :=
  (ns = 0 ∧ f = []) ∨
  ∃ ds, f = '.' :: ds ∧ ds ≠ [] ∧ ds.length ≤ 9 ∧ (∀ c ∈ ds, c.isDigit = true) ∧
    Nat.ofDigitChars 10 ds 0 * 10 ^ (9 - ds.length) = ns

/-- `Z` for UTC, else a sign and the hours and minutes of the offset (its seconds are dropped). -/
def ZoneOf (off : Int) (z : List Char) : Prop :=
  (off = 0 ∧ z = ['Z']) ∨
  off ≠ 0 ∧ ∃ sign h m hh mm, z = sign :: (h ++ ':' :: m) ∧ Decimal 2 hh h ∧ Decimal 2 mm m ∧ mm < 60 ∧
    ((sign = '+' ∧ ((hh * 60 + mm : Nat) : Int) = off.tdiv 60) ∨ (sign = '-' ∧ -((hh * 60 + mm : Nat) : Int) = off.tdiv 60))

/-- The text shows the date, the time of day with its fraction and the offset. -/
def ShowsInstant (st : Stamp) (ns : Nat) (s : List Char) : Prop :=
  ∃ y mo d h mi se f z, s = y ++ '-' :: mo ++ '-' :: d ++ 'T' :: h ++ ':' :: mi ++ ':' :: se ++ f ++ z ∧
    Decimal 4 st.year.toNat y ∧ Decimal 2 st.month.toNat mo ∧ Decimal 2 st.day.toNat d ∧
    Decimal 2 st.hour.toNat h ∧ Decimal 2 st.minute.toNat mi ∧ Decimal 2 st.second.toNat se ∧
    Fraction ns f ∧ ZoneOf st.off z

/-! ### Proofs -/

theorem pad_decimal {w n : Nat} (hw : 0 < w) (h : n < 10 ^ w) : Decimal w n (pad w n) := by
  have ht : (toString n).toList = Nat.toDigits 10 n := Nat.toList_repr
  have hl := (Nat.length_toDigits_le_iff (b := 10) (n := n) (by omega) hw).mpr h
  unfold pad Decimal
  rw [ht]
  refine ⟨by simp; omega, ?_, ?_⟩
  · intro c hc
    rcases List.mem_append.mp hc with hc | hc
    · rw [(List.mem_replicate.mp hc).2]; decide
    · exact Nat.isDigit_of_mem_toDigits (by omega) (by omega) hc
  · rw [Nat.ofDigitChars_append, Nat.ofDigitChars_replicate_zero, Nat.mul_zero, Nat.ofDigitChars_ten_toDigits]

theorem trim_split (l : List Char) : ∃ k, l = (l.reverse.dropWhile (fun c => decide (c = '0'))).reverse ++ List.replicate k '0' := by
  have h := List.takeWhile_append_dropWhile (p := fun c => decide (c = '0')) (l := l.reverse)
  have hz : l.reverse.takeWhile (fun c => decide (c = '0')) =
      List.replicate (l.reverse.takeWhile (fun c => decide (c = '0'))).length '0' := by
    rw [List.eq_replicate_iff]
    refine ⟨rfl, fun b hb => ?_⟩
    have := List.all_takeWhile (p := fun c => decide (c = '0')) (l := l.reverse)
    rw [List.all_eq_true] at this
    simpa using this b hb
  refine ⟨(l.reverse.takeWhile (fun c => decide (c = '0'))).length, ?_⟩
  have h2 := congrArg List.reverse h
  rw [List.reverse_append, List.reverse_reverse, hz, List.reverse_replicate] at h2
  exact h2.symm

theorem frac_spec {ns : Nat} (h : ns < 10 ^ 9) : Fraction ns (fracText ns) := by
  unfold fracText Fraction
  by_cases h0 : ns = 0
  · exact Or.inl ⟨h0, by rw [if_pos h0]⟩
  · right
    rw [if_neg h0]
    obtain ⟨p1, p2, p3⟩ := pad_decimal (w := 9) (by omega) h
    obtain ⟨k, hk⟩ := trim_split (pad 9 ns)
    generalize hds : ((pad 9 ns).reverse.dropWhile (fun c => decide (c = '0'))).reverse = ds at hk ⊢
    rw [hk] at p1 p2 p3
    rw [List.length_append, List.length_replicate] at p1
    rw [Nat.ofDigitChars_append, Nat.ofDigitChars_replicate_zero] at p3
    refine ⟨ds, rfl, ?_, by omega, fun c hc => p2 c (List.mem_append_left _ hc), ?_⟩
    · rintro rfl
      simp at p3; exact h0 p3.symm
    · have : 9 - ds.length = k := by omega
      rw [this, Nat.mul_comm]; exact p3

theorem zone_spec {off : Int} (h1 : -360000 < off) (h2 : off < 360000) : ZoneOf off (zoneText off) := by
  unfold zoneText ZoneOf
  by_cases h0 : off = 0
  · exact Or.inl ⟨h0, by rw [if_pos h0]⟩
  · right
    rw [if_neg h0]
    refine ⟨h0, _, _, _, _, _, rfl, pad_decimal (by omega) ?_, pad_decimal (by omega) ?_, Nat.mod_lt _ (by omega), ?_⟩
    · have : (off.tdiv 60).natAbs < 6000 := by
        rw [Int.natAbs_tdiv]
        show off.natAbs / 60 < 6000
        omega
      omega
    · omega
    · by_cases hs : off.tdiv 60 < 0
      · right
        rw [if_pos hs]
        exact ⟨rfl, by omega⟩
      · left
        rw [if_neg hs]
        exact ⟨rfl, by omega⟩

theorem civil_bounds (n : Int) : 1 ≤ (civil n).2.1 ∧ (civil n).2.1 ≤ 12 ∧ 1 ≤ (civil n).2.2 ∧ (civil n).2.2 ≤ 31 := by
  obtain ⟨_, h1, h2⟩ := Signalk.dayNumber_civil n
  refine ⟨h1, h2, ?_⟩
  unfold civil
  simp only
  omega

theorem rfc3339_spec {t : Time} {ns : Nat} {s : List Char} (h : timeText t ns = some s) (hns : ns < 10 ^ 9)
    (h1 : -360000 < t.off) (h2 : t.off < 360000) : ShowsInstant t.stamp ns s := by
  unfold timeText at h
  split at h
  · rename_i hy
    injection h with h
    subst h
    obtain ⟨b1, b2, b3, b4⟩ := civil_bounds t.day
    have hc0 : 0 ≤ t.clock := by unfold Time.clock; omega
    have hc1 : t.clock < 86400 := by unfold Time.clock; omega
    have e1 : t.stamp.month = (civil t.day).2.1 := rfl
    have e2 : t.stamp.day = (civil t.day).2.2 := rfl
    have e3 : t.stamp.hour = t.clock / 3600 := rfl
    have e4 : t.stamp.minute = t.clock / 60 % 60 := rfl
    have e5 : t.stamp.second = t.clock % 60 := rfl
    exact ⟨_, _, _, _, _, _, _, _, rfl, pad_decimal (by omega) (by omega), pad_decimal (by omega) (by omega),
      pad_decimal (by omega) (by omega), pad_decimal (by omega) (by omega), pad_decimal (by omega) (by omega),
      pad_decimal (by omega) (by omega), frac_spec hns, zone_spec h1 h2⟩
  · cases h

theorem pad_ascii (w n : Nat) : ∀ c ∈ pad w n, c.toNat < 128 := by
  intro c hc
  unfold pad at hc
  rcases List.mem_append.mp hc with hc | hc
  · rw [(List.mem_replicate.mp hc).2]; decide
  · have := digit_ascii (dec_digits n c hc); omega

theorem rfc3339_ascii (st : Stamp) (ns : Nat) : ∀ c ∈ rfc3339 st ns, c.toNat < 128 := by
  have hf : ∀ c ∈ fracText ns, c.toNat < 128 := by
    intro c hc
    unfold fracText at hc
    split at hc
    · cases hc
    · rcases List.mem_cons.mp hc with rfl | hc
      · decide
      · rw [List.mem_reverse] at hc
        exact pad_ascii 9 ns c (List.mem_reverse.mp ((List.dropWhile_sublist _).subset hc))
  have hz : ∀ c ∈ zoneText st.off, c.toNat < 128 := by
    intro c hc
    unfold zoneText at hc
    split at hc
    · rw [List.mem_singleton.mp hc]; decide
    · rcases List.mem_cons.mp hc with rfl | hc
      · split <;> decide
      · rcases List.mem_append.mp hc with hc | hc
        · exact pad_ascii _ _ c hc
        · rcases List.mem_cons.mp hc with rfl | hc
          · decide
          · exact pad_ascii _ _ c hc
  intro c hc
  unfold rfc3339 at hc
  simp only [List.append_assoc, List.cons_append, List.mem_append, List.mem_cons] at hc
  rcases hc with hc | rfl | hc | rfl | hc | rfl | hc | rfl | hc | rfl | hc | hc | hc
  all_goals first | exact pad_ascii _ _ c hc | exact hf c hc | exact hz c hc | decide

/-! ## Bytes -/

/-- The alphabet of base64 (RFC 4648 section 4). -/
def alphabet : List Char := "ABCDEFGHIJKLMNOPQRSTUVWXYZabcdefghijklmnopqrstuvwxyz0123456789+/".toList

def sextet (n : Nat) : Char := alphabet.getD n '='

/-- Go `base64.StdEncoding.EncodeToString`. -/
def base64 : List Byte → List Char
  | [] => []
  | [a] => [sextet (a.toNat / 4), sextet (a.toNat % 4 * 16), '=', '=']
  | [a, b] => [sextet (a.toNat / 4), sextet (a.toNat % 4 * 16 + b.toNat / 16), sextet (b.toNat % 16 * 4), '=']
  | a :: b :: c :: r =>
    sextet (a.toNat / 4) :: sextet (a.toNat % 4 * 16 + b.toNat / 16) ::
      sextet (b.toNat % 16 * 4 + c.toNat / 64) :: sextet (c.toNat % 64) :: base64 r

/-! ### Specification -/

/-- The value of a character of the alphabet (RFC 4648, table 1). -/
def sextetVal (c : Char) : Nat :=
  if 'A' ≤ c ∧ c ≤ 'Z' then c.toNat - 'A'.toNat
  else if 'a' ≤ c ∧ c ≤ 'z' then c.toNat - 'a'.toNat + 26
  else if '0' ≤ c ∧ c ≤ '9' then c.toNat - '0'.toNat + 52
  else if c = '+' then 62
  else if c = '/' then 63
  else 64

/-- Decoding (RFC 4648): four characters are 24 bits, the last group may be padded. -/
def unbase64 : List Char → Option (List Byte)
  | [] => some []
  | a :: b :: c :: d :: r =>
    let w := ((sextetVal a * 64 + sextetVal b) * 64 + (if c = '=' then 0 else sextetVal c)) * 64 +
      (if d = '=' then 0 else sextetVal d)
    let x := [UInt8.ofNat (w / 65536), UInt8.ofNat (w / 256 % 256), UInt8.ofNat (w % 256)]
    if d = '=' then if r = [] then some (x.take (if c = '=' then 1 else 2)) else none
    else (unbase64 r).map (x ++ ·)
  | _ => none

/-! ### Proofs -/

theorem sextet_val {n : Nat} (h : n < 64) : sextetVal (sextet n) = n ∧ sextet n ≠ '=' ∧ (sextet n).toNat < 128 := by
  have key : ∀ n : Fin 64, sextetVal (sextet n.val) = n.val ∧ sextet n.val ≠ '=' ∧ (sextet n.val).toNat < 128 := by
    decide +kernel
  exact key ⟨n, h⟩

theorem byte_eq {a : Byte} {n : Nat} (h : n = a.toNat) : UInt8.ofNat n = a := by
  rw [h]; simp

/-- Base64 decodes to the bytes. -/
theorem unbase64_base64 : ∀ l : List Byte, unbase64 (base64 l) = some l
  | [] => rfl
  | [a] => by
    have ha := a.toNat_lt
    have h1 := sextet_val (n := a.toNat / 4) (by omega)
    have h2 := sextet_val (n := a.toNat % 4 * 16) (by omega)
    simp only [base64, unbase64, if_true, List.take_succ_cons, List.take_zero, h1.1, h2.1]
    rw [byte_eq (a := a) (by omega)]
  | [a, b] => by
    have ha := a.toNat_lt
    have hb := b.toNat_lt
    have h1 := sextet_val (n := a.toNat / 4) (by omega)
    have h2 := sextet_val (n := a.toNat % 4 * 16 + b.toNat / 16) (by omega)
    have h3 := sextet_val (n := b.toNat % 16 * 4) (by omega)
    simp only [base64, unbase64, if_true, if_neg h3.2.1, List.take_succ_cons, List.take_zero, h1.1, h2.1, h3.1]
    rw [byte_eq (a := a) (by omega), byte_eq (a := b) (by omega)]
  | a :: b :: c :: r => by
    have ha := a.toNat_lt
    have hb := b.toNat_lt
    have hc := c.toNat_lt
    have h1 := sextet_val (n := a.toNat / 4) (by omega)
    have h2 := sextet_val (n := a.toNat % 4 * 16 + b.toNat / 16) (by omega)
    have h3 := sextet_val (n := b.toNat % 16 * 4 + c.toNat / 64) (by omega)
    have h4 := sextet_val (n := c.toNat % 64) (by omega)
    simp only [base64, unbase64, if_neg h3.2.1, if_neg h4.2.1, h1.1, h2.1, h3.1, h4.1, unbase64_base64 r]
    rw [byte_eq (a := a) (by omega), byte_eq (a := b) (by omega), byte_eq (a := c) (by omega)]
    rfl

theorem base64_ascii : ∀ l : List Byte, ∀ c ∈ base64 l, c.toNat < 128
  | [] => by intro c hc; cases hc
  | [a] => by
    have ha := a.toNat_lt
    intro c hc
    simp only [base64, List.mem_cons, List.not_mem_nil, or_false] at hc
    rcases hc with rfl | rfl | rfl | rfl
    · exact (sextet_val (by omega)).2.2
    · exact (sextet_val (by omega)).2.2
    · decide
    · decide
  | [a, b] => by
    have ha := a.toNat_lt
    have hb := b.toNat_lt
    intro c hc
    simp only [base64, List.mem_cons, List.not_mem_nil, or_false] at hc
    rcases hc with rfl | rfl | rfl | rfl
    · exact (sextet_val (by omega)).2.2
    · exact (sextet_val (by omega)).2.2
    · exact (sextet_val (by omega)).2.2
    · decide
  | a :: b :: c :: r => by
    have ha := a.toNat_lt
    have hb := b.toNat_lt
    have hc := c.toNat_lt
    intro x hx
    simp only [base64, List.mem_cons] at hx
    rcases hx with rfl | rfl | rfl | rfl | hx
    · exact (sextet_val (by omega)).2.2
    · exact (sextet_val (by omega)).2.2
    · exact (sextet_val (by omega)).2.2
    · exact (sextet_val (by omega)).2.2
    · exact base64_ascii r x hx

example : String.ofList (base64 [77, 97, 110, 255]) = "TWFu/w==" := by decide +kernel

example : (timeText ⟨1462104000, -5 * 3600⟩ 120000000).map String.ofList = some "2016-05-01T07:00:00.12-05:00" := by
  decide +kernel

end Argo.Json
