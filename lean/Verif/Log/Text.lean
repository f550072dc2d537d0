import Verif.Log.Model

set_option autoImplicit false

/-! # What the texts of values say -/

namespace Argo.Log

open Argo
open Argo.Nmea2k (Val)
open Argo.Signalk (Str bs Time Stamp)
open Argo.Json (pad fracText ascii Decimal Fraction isDigit IsNumber bs_append dec_shape)
open Argo.Float

/-! ## Specification -/

/-- Numbers in brackets, with blanks between them. -/
def readBytes (t : Str) : List ℕ :=
  let inner := (t.drop 1).dropLast
  if inner = [] then [] else (inner.splitOn 32).map digitsVal

/-- A date, a time of day with its fraction, an offset in hours and minutes, and a name of the zone. -/
def ShowsTime (st : Stamp) (ns : ℕ) (zone t : Str) : Prop :=
  ∃ y mo d h mi se f sign oh om hh mm,
    t = ascii (y ++ '-' :: mo ++ '-' :: d ++ ' ' :: h ++ ':' :: mi ++ ':' :: se ++ f ++ ' ' :: sign :: (oh ++ om) ++ [' ']) ++ zone ∧
    Decimal 4 st.year.toNat y ∧ Decimal 2 st.month.toNat mo ∧ Decimal 2 st.day.toNat d ∧
    Decimal 2 st.hour.toNat h ∧ Decimal 2 st.minute.toNat mi ∧ Decimal 2 st.second.toNat se ∧ Fraction ns f ∧
    Decimal 2 hh oh ∧ Decimal 2 mm om ∧ mm < 60 ∧
    ((sign = '+' ∧ ((hh * 60 + mm : ℕ) : ℤ) = st.off.tdiv 60) ∨ (sign = '-' ∧ -((hh * 60 + mm : ℕ) : ℤ) = st.off.tdiv 60))

/-- How far a floating point number may be off, relative to the quantity, before it is printed. -/
def slack : Val → ℚ
  | .f32div _ _ => 1 / 2 ^ 22
  | _ => 1 / 2 ^ 50

/-- What a text says about a value: integers exactly, other numbers to half of a millionth and the precision of their format,
texts as they are, bytes as numbers, times as dates and times of day in the local zone. -/
def Says (here : Place) (v : Val) (t : Str) : Prop :=
  match v with
  | .nil => t = bs "nil"
  | .u64 n => IsNumber t ∧ decimal t = n
  | .sint _ n => IsNumber t ∧ decimal t = n
  | .unix _ => ShowsTime (here.time v).stamp 0 (here.zone v) t
  | .clock _ _ _ ns => ShowsTime (here.time v).stamp (ns % 10 ^ 9) (here.zone v) t
  | .text s => t = bs s
  | .chars b => t = b
  | .bytes b => readBytes t = b.map UInt8.toNat
  | v => IsNumber t ∧ ∃ y, quantity v = some y ∧ |decimal t - y| ≤ 1 / (2 * 10 ^ 6) + slack v * |y|

/-- The local zone, with offsets up to a day: dates are instants, times of day are on 1970-01-01. -/
structure LocalPlace (here : Place) : Prop where
  date : ∀ s, ∃ off, -86400 < off ∧ off < 86400 ∧ here.time (.unix s) = ⟨s, off⟩
  time : ∀ h m s ns, ∃ off, -86400 < off ∧ off < 86400 ∧
    here.time (.clock h m s ns) = Time.date 1970 1 1 ((3600 * h + 60 * m + s + ns / 10 ^ 9 : ℕ) : ℤ) off
  /-- names of zones have no semicolon and no line feed -/
  zone : ∀ v, (59 : Byte) ∉ here.zone v ∧ (10 : Byte) ∉ here.zone v

/-! ## Numbers -/

theorem digitsVal_cat (a b : Str) : digitsVal (a ++ b) = digitsVal a * 10 ^ b.length + digitsVal b := by
  induction b using List.reverseRecOn with
  | nil => simp [digitsVal]
  | append_singleton b c ih =>
    rw [← List.append_assoc, digitsVal_append, ih, digitsVal_append, List.length_append, List.length_singleton, pow_succ]
    ring

theorem fixed6_text (x : ℚ) : ∃ q : ℕ, (q : ℤ) = roundEven (|x| * 10 ^ 6) ∧
    IsNumber (fixed6 x) ∧ decimal (fixed6 x) = (if x < 0 then -1 else 1) * (q / 10 ^ 6) := by
  have h0 : 0 ≤ roundEven (|x| * 10 ^ 6) := by
    have h2 : 0 ≤ |x| * 10 ^ 6 := by positivity
    generalize |x| * 10 ^ 6 = z at h2 ⊢
    have h1 := abs_le.mp (roundEven_err z)
    by_contra hneg
    have : ((roundEven z : ℤ) : ℚ) ≤ ((-1 : ℤ) : ℚ) := Int.cast_le.mpr (by omega)
    push_cast at this
    linarith [h1.2]
  refine ⟨(roundEven (|x| * 10 ^ 6)).toNat, by omega, ?_⟩
  generalize hq : (roundEven (|x| * 10 ^ 6)).toNat = q
  have hlen : (bs (toString (q % 10 ^ 6))).length ≤ 6 := by
    rw [Json.dec_bytes, ascii, List.length_map, show (toString (q % 10 ^ 6)).toList = Nat.toDigits 10 (q % 10 ^ 6) from Nat.toList_repr]
    exact (Nat.length_toDigits_le_iff (b := 10) (by omega) (by omega)).mpr (Nat.mod_lt _ (by norm_num))
  set f := zeros (6 - (bs (toString (q % 10 ^ 6))).length) ++ bs (toString (q % 10 ^ 6)) with hf
  have hfl : f.length = 6 := by rw [hf, List.length_append, zeros, List.length_replicate]; omega
  have hf0 : f ≠ [] := by intro h; rw [h] at hfl; cases hfl
  have hfd : ∀ b ∈ f, isDigit b = true := by
    intro b hb
    rcases List.mem_append.mp hb with h | h
    · exact zeros_digits _ b h
    · exact nat_digits _ b h
  have hv : digitsVal f = q % 10 ^ 6 := by rw [hf, digitsVal_zeros_left, digitsVal_nat]
  have e : fixed6 x = text (decide (x < 0)) (bs (toString (q / 10 ^ 6))) f none := by
    unfold fixed6 text
    simp only [hq, if_neg hf0, List.append_nil, decide_eq_true_eq, ← hf]
  obtain ⟨b, l, hb, h1, h2, h3⟩ := dec_shape (q / 10 ^ 6)
  rw [e]
  refine ⟨number_text _ none hb h1 h2 h3 hfd, ?_⟩
  rw [decimal_text _ none (nat_digits _) (by rw [hb]; simp) hfd, digitsVal_cat, hv, digitsVal_nat, hfl]
  have hq2 : (q : ℚ) = ((q / 10 ^ 6 : ℕ) : ℚ) * 10 ^ 6 + ((q % 10 ^ 6 : ℕ) : ℚ) := by
    have := Nat.div_add_mod q (10 ^ 6)
    have : (10 ^ 6 : ℕ) * (q / 10 ^ 6) + q % 10 ^ 6 = q := this
    calc (q : ℚ) = (((10 ^ 6 : ℕ) * (q / 10 ^ 6) + q % 10 ^ 6 : ℕ) : ℚ) := by rw [this]
      _ = _ := by push_cast; ring
  rw [hq2]
  simp only [decide_eq_true_eq, expo, mul_assoc]
  congr 1
  push_cast
  rw [div_eq_mul_inv]
  norm_num

/-- `%f` says the number to half of a millionth. -/
theorem fixed6_err (x : ℚ) : |decimal (fixed6 x) - x| ≤ 1 / (2 * 10 ^ 6) := by
  obtain ⟨q, hq, _, hd⟩ := fixed6_text x
  have h1 := roundEven_err (|x| * 10 ^ 6)
  rw [← hq] at h1
  have h2 : |(q : ℚ) / 10 ^ 6 - (|x|)| ≤ 1 / (2 * 10 ^ 6) := by
    have e : (q : ℚ) / 10 ^ 6 - |x| = -(|x| * 10 ^ 6 - ((q : ℤ) : ℚ)) / 10 ^ 6 := by push_cast; field_simp; ring
    rw [e, abs_div, abs_neg, abs_of_pos (by norm_num : (0 : ℚ) < 10 ^ 6)]
    calc |((|x|) * 10 ^ 6 - ((q : ℤ) : ℚ))| / 10 ^ 6 ≤ (1 / 2) / 10 ^ 6 := by gcongr
      _ = _ := by norm_num
  rw [hd]
  split
  · rename_i hx
    rw [abs_of_neg hx] at h2
    rw [show -1 * ((q : ℚ) / 10 ^ 6) - x = -((q : ℚ) / 10 ^ 6 - -x) by ring, abs_neg]
    exact h2
  · rename_i hx
    rw [abs_of_nonneg (not_lt.mp hx)] at h2
    rw [one_mul]; exact h2

theorem nat_decimal (n : ℕ) : decimal (bs (toString n)) = n := by
  have := decimal_text false (i := bs (toString n)) (f := []) none (nat_digits n)
    (by obtain ⟨b, l, e, _⟩ := dec_shape n; rw [e]; simp) (by simp)
  rw [List.append_nil, digitsVal_nat] at this
  simpa [text, expo] using this

theorem int_decimal (n : ℤ) : decimal (bs (toString n)) = n := by
  cases n with
  | ofNat n => exact_mod_cast nat_decimal n
  | negSucc n =>
    have e : toString (Int.negSucc n) = "-" ++ toString (n + 1) := rfl
    rw [e, bs_append]
    have h1 : bs "-" = [45] := by decide +kernel
    have := decimal_text true (i := bs (toString (n + 1))) (f := []) none (nat_digits _)
      (by obtain ⟨b, l, e, _⟩ := dec_shape (n + 1); rw [e]; simp) (by simp)
    rw [h1]
    simp only [text, if_true, expo, digitsVal_nat, List.append_nil, List.length_nil] at this
    rw [this, Int.cast_negSucc]
    simp

/-- A floating point number is near to the quantity it stands for. -/
theorem number_near {v : Val} {y : ℚ} (hv : OnBus v) (hq : quantity v = some y) (hf : ∀ n, v ≠ .u64 n) (hf2 : ∀ w n, v ≠ .sint w n) :
    ∃ x, number v = some x ∧ |x - y| ≤ slack v * |y| := by
  cases v with
  | f64 n r =>
    obtain ⟨s, c, rfl, hc, _⟩ := hv
    simp only [quantity, number, hc, Option.map_some, Option.some.injEq] at hq ⊢
    subst hq
    refine ⟨_, rfl, ?_⟩
    by_cases hn : n = 0
    · subst hn
      rw [show double.round (double.round ((0 : ℤ) : ℚ) * double.round c) = 0 by simp [round_zero]]; simp
    · have hb := constant_bounds hc
      have := (near_product hn (c := c) (by rw [abs_of_pos (lt_of_lt_of_le (by norm_num) hb.1)]; exact le_trans (by norm_num) hb.1)).1
      exact (this.mono (show (4 : ℚ) / 2 ^ 53 ≤ 1 / 2 ^ 50 by norm_num))
  | f32div n d =>
    simp only [quantity, number, Option.some.injEq] at hq ⊢
    subst hq
    refine ⟨_, rfl, ?_⟩
    have hd : d = 10 ^ 7 ∨ d = 100 ∨ d = 1000 := by
      rcases hv with h | h
      · exact Or.inl h.1
      · exact Or.inr h.1
    by_cases hn : n = 0
    · subst hn
      rw [show single.round (single.round ((0 : ℤ) : ℚ) / single.round d) = 0 by simp [round_zero]]; simp
    · have := (near_quotient (F := single) (Or.inr rfl) hn (d := d) (by rcases hd with rfl | rfl | rfl <;> norm_num)
        (single_nat (by rcases hd with rfl | rfl | rfl <;> norm_num)) (by rcases hd with rfl | rfl | rfl <;> norm_num)).1
      exact this.mono (by simp only [single, slack]; norm_num)
  | f64div n d =>
    simp only [quantity, number, Option.some.injEq] at hq ⊢
    subst hq
    refine ⟨_, rfl, ?_⟩
    obtain ⟨rfl, _⟩ := hv
    by_cases hn : n = 0
    · subst hn
      rw [show double.round (double.round ((0 : ℤ) : ℚ) / double.round (10 ^ 16 : ℕ)) = 0 by simp [Float.round_zero]]; simp
    · have := (near_quotient (F := double) (Or.inl rfl) hn (d := 10 ^ 16) (by norm_num) double_e16 (by norm_num)).1
      exact this.mono (by simp only [double, slack]; norm_num)
  | u64 n => exact absurd rfl (hf n)
  | sint w n => exact absurd rfl (hf2 w n)
  | _ => cases hq

theorem float_says {v : Val} {y : ℚ} (hv : OnBus v) (hq : quantity v = some y) (hf : ∀ n, v ≠ .u64 n) (hf2 : ∀ w n, v ≠ .sint w n) :
    IsNumber (fixed6 ((number v).getD 0)) ∧ |decimal (fixed6 ((number v).getD 0)) - y| ≤ 1 / (2 * 10 ^ 6) + slack v * |y| := by
  obtain ⟨x, hx, hn⟩ := number_near hv hq hf hf2
  rw [hx, Option.getD_some]
  refine ⟨(fixed6_text x).choose_spec.2.1, ?_⟩
  have h1 := fixed6_err x
  have h2 := abs_sub_le (decimal (fixed6 x)) x y
  linarith

/-! ## Bytes -/

theorem bytes_says (l : List Byte) : readBytes (bytesText l) = l.map UInt8.toNat := by
  unfold readBytes bytesText
  have e : ∀ s : Str, (([91] ++ s ++ [93] : Str).drop 1).dropLast = s := by
    intro s; simp
  simp only [e]
  cases l with
  | nil => rfl
  | cons b l =>
    rw [if_neg]
    · rw [List.splitOn_intercalate]
      · rw [List.map_map]
        apply List.map_congr_left
        intro b _
        exact digitsVal_nat _
      · intro t ht
        obtain ⟨b, _, rfl⟩ := List.mem_map.mp ht
        intro h32
        have := nat_digits _ _ h32
        revert this; decide
      · simp
    · intro h
      obtain ⟨c, r, hc, _⟩ := dec_shape b.toNat
      have hc' : natText b.toNat = c :: r := hc
      cases l <;> simp only [List.map_cons, hc', List.map_nil] at h <;> simp [List.intercalate] at h

/-! ## Times -/

theorem time_says {t : Time} {ns : ℕ} {zone : Str} (hy : 0 ≤ t.stamp.year ∧ t.stamp.year ≤ 9999) (hns : ns < 10 ^ 9)
    (h1 : -360000 < t.off) (h2 : t.off < 360000) : ShowsTime t.stamp ns zone (timeString t.stamp ns zone) := by
  obtain ⟨b1, b2, b3, b4⟩ := Json.civil_bounds t.day
  have hc0 : 0 ≤ t.clock := by unfold Time.clock; omega
  have hc1 : t.clock < 86400 := by unfold Time.clock; omega
  have e1 : t.stamp.month = (Signalk.civil t.day).2.1 := rfl
  have e2 : t.stamp.day = (Signalk.civil t.day).2.2 := rfl
  have e3 : t.stamp.hour = t.clock / 3600 := rfl
  have e4 : t.stamp.minute = t.clock / 60 % 60 := rfl
  have e5 : t.stamp.second = t.clock % 60 := rfl
  have e6 : t.stamp.off = t.off := rfl
  have hyt : yearText t.stamp.year = pad 4 t.stamp.year.toNat := by
    unfold yearText
    rw [if_neg (by omega), List.nil_append, show t.stamp.year.natAbs = t.stamp.year.toNat by omega]
  have hoff : (t.off.tdiv 60).natAbs < 6000 := by
    rw [Int.natAbs_tdiv]
    show t.off.natAbs / 60 < 6000
    omega
  refine ⟨pad 4 t.stamp.year.toNat, _, _, _, _, _, _, if t.off.tdiv 60 < 0 then '-' else '+', _, _, _, _, ?_,
    Json.pad_decimal (by omega) (by omega), Json.pad_decimal (n := t.stamp.month.toNat) (by omega) (by omega),
    Json.pad_decimal (n := t.stamp.day.toNat) (by omega) (by omega), Json.pad_decimal (n := t.stamp.hour.toNat) (by omega) (by omega),
    Json.pad_decimal (n := t.stamp.minute.toNat) (by omega) (by omega),
    Json.pad_decimal (n := t.stamp.second.toNat) (by omega) (by omega), Json.frac_spec hns,
    Json.pad_decimal (n := (t.off.tdiv 60).natAbs / 60) (by omega) (by omega),
    Json.pad_decimal (n := (t.off.tdiv 60).natAbs % 60) (by omega) (by omega), Nat.mod_lt _ (by omega), ?_⟩
  · unfold timeString dateClock offsetText
    rw [hyt, e6]
  · rw [e6]
    by_cases hs : t.off.tdiv 60 < 0
    · rw [if_pos hs]; right; exact ⟨rfl, by omega⟩
    · rw [if_neg hs]; left; exact ⟨rfl, by omega⟩

theorem year_ok {sec off : ℤ} (h1 : -86400 ≤ sec + off) (h2 : sec + off < 2 ^ 33) :
    0 ≤ (Time.stamp ⟨sec, off⟩).year ∧ (Time.stamp ⟨sec, off⟩).year ≤ 9999 := by
  have := Json.timeText_some h1 h2 0
  unfold Json.timeOut Json.timeText at this
  by_contra hc
  rw [if_neg hc] at this
  exact this rfl

/-- Every value a message can have is printed so that the text says it. -/
theorem value_says {here : Place} (hl : LocalPlace here) {v : Val} (hv : OnBus v) (hs : Json.Small v) : Says here v (valueText here v) := by
  cases v with
  | nil => rfl
  | u64 n => exact ⟨Json.isNumber_nat n, nat_decimal n⟩
  | sint w n => exact ⟨Json.isNumber_int n, int_decimal n⟩
  | f64 n r =>
    obtain ⟨s, c, rfl, hc, h⟩ := hv
    have hq : quantity (.f64 n (.scale s)) = some (n * c) := by simp [quantity, hc]
    obtain ⟨h1, h2⟩ := float_says (v := .f64 n (.scale s)) ⟨s, c, rfl, hc, h⟩ hq (by simp) (by simp)
    exact ⟨h1, _, hq, h2⟩
  | f32div n d =>
    obtain ⟨h1, h2⟩ := float_says (v := .f32div n d) hv rfl (by simp) (by simp)
    exact ⟨h1, _, rfl, h2⟩
  | f64div n d =>
    obtain ⟨h1, h2⟩ := float_says (v := .f64div n d) hv rfl (by simp) (by simp)
    exact ⟨h1, _, rfl, h2⟩
  | unix s =>
    obtain ⟨off, o1, o2, ho⟩ := hl.date s
    simp only [Json.Small] at hs
    simp only [Says, valueText, ho]
    exact time_says (year_ok (by omega) (by omega)) (by norm_num) (by simp only; omega) (by simp only; omega)
  | clock h m s ns =>
    obtain ⟨off, o1, o2, ho⟩ := hl.time h m s ns
    have e : Time.date 1970 1 1 ((3600 * h + 60 * m + s + ns / 10 ^ 9 : ℕ) : ℤ) off =
        ⟨((3600 * h + 60 * m + s + ns / 10 ^ 9 : ℕ) : ℤ) - off, off⟩ := by
      have hd : Signalk.dayNumber 1970 1 1 = 0 := by decide
      unfold Time.date
      show Time.mk ((Signalk.dayNumber 1970 1 1 + 0) * 86400 + _ - off) off = _
      rw [hd]
      simp
    simp only [Json.Small] at hs
    simp only [Says, valueText]
    rw [ho, e]
    exact time_says (year_ok (by omega) (by omega)) (Nat.mod_lt _ (by norm_num)) (by simp only; omega) (by simp only; omega)
  | text s => rfl
  | chars b => rfl
  | bytes b => exact bytes_says b

end Argo.Log
