import Mathlib.Data.Int.Log
import Mathlib.Data.Rat.Floor
import Mathlib.Algebra.Order.Field.Power
import Mathlib.Tactic.Linarith
import Mathlib.Tactic.Positivity
import Mathlib.Tactic.NormNum
import Mathlib.Tactic.Ring
import Mathlib.Tactic.FieldSimp

set_option autoImplicit false

/-!
# Binary floating point numbers (IEEE 754-2008)

A format has a precision and a least exponent; overflow is left out (no number of argo comes near it), and so are signed
zeros.  `Fmt.round` is rounding to nearest, ties to even, which every conversion, multiplication and division of Go uses
(the Go specification refers to IEEE 754).  `round_rep`, `round_nearest` and `round_even` say that it is that.
-/

namespace Argo.Float

/-- A binary format. -/
structure Fmt where
  /-- bits of the significand -/
  p : ℕ
  /-- exponent of the least positive number -/
  emin : ℤ

/-- `float64` -/
def double : Fmt := ⟨53, -1074⟩

/-- `float32` -/
def single : Fmt := ⟨24, -149⟩

/-- A number of the format. -/
def Fmt.Rep (F : Fmt) (y : ℚ) : Prop := ∃ m e : ℤ, |m| < 2 ^ F.p ∧ F.emin ≤ e ∧ y = m * 2 ^ e

/-- The integer nearest to `y`, the even one of two. -/
def roundEven (y : ℚ) : ℤ :=
  if y - ⌊y⌋ < 1 / 2 then ⌊y⌋
  else if 1 / 2 < y - ⌊y⌋ then ⌊y⌋ + 1
  else if ⌊y⌋ % 2 = 0 then ⌊y⌋ else ⌊y⌋ + 1

/-- The exponent of the last bit of the numbers of the format around `x`. -/
def Fmt.expo (F : Fmt) (x : ℚ) : ℤ := max (Int.log 2 |x| - (F.p - 1)) F.emin

/-- The number of the format nearest to `x`. -/
def Fmt.round (F : Fmt) (x : ℚ) : ℚ := roundEven (x / 2 ^ F.expo x) * 2 ^ F.expo x

theorem roundEven_err (y : ℚ) : |y - roundEven y| ≤ 1 / 2 := by
  have h1 := Int.floor_le y
  have h2 := Int.lt_floor_add_one y
  unfold roundEven
  rw [abs_le]
  split
  · constructor <;> linarith
  · split
    · push_cast; constructor <;> linarith
    · split
      · constructor <;> linarith
      · push_cast; constructor <;> linarith

/-- An integer nearer than a half. -/
theorem roundEven_eq {y : ℚ} {m : ℤ} (h : |y - m| < 1 / 2) : roundEven y = m := by
  have h1 := roundEven_err y
  have h2 : |((roundEven y - m : ℤ) : ℚ)| < 1 := by
    push_cast
    rw [abs_lt] at h ⊢
    rw [abs_le] at h1
    constructor <;> linarith
  have h3 : |roundEven y - m| < 1 := by exact_mod_cast h2
  have := Int.abs_lt_one_iff.mp h3
  omega

theorem roundEven_int (m : ℤ) : roundEven m = m := roundEven_eq (by simp)

theorem two_zpow_pos (e : ℤ) : (0 : ℚ) < 2 ^ e := by positivity

theorem round_err (F : Fmt) (x : ℚ) : |x - F.round x| ≤ 2 ^ F.expo x / 2 := by
  have hp := two_zpow_pos (F.expo x)
  have h := roundEven_err (x / 2 ^ F.expo x)
  have e : x - F.round x = (x / 2 ^ F.expo x - roundEven (x / 2 ^ F.expo x)) * 2 ^ F.expo x := by
    unfold Fmt.round
    field_simp
  rw [e, abs_mul, abs_of_pos hp]
  calc _ ≤ (1 / 2) * (2 : ℚ) ^ F.expo x := by gcongr
    _ = _ := by ring

theorem round_zero (F : Fmt) : F.round 0 = 0 := by
  unfold Fmt.round
  rw [zero_div, show roundEven 0 = 0 from roundEven_int 0]; simp

theorem log_spec {x : ℚ} (hx : x ≠ 0) {k : ℤ} (h1 : (2 : ℚ) ^ k ≤ |x|) (h2 : |x| < 2 ^ (k + 1)) : Int.log 2 |x| = k := by
  have hp : 0 < |x| := abs_pos.mpr hx
  have a := (Int.zpow_le_iff_le_log (b := 2) (by norm_num) hp (x := k)).mp (by exact_mod_cast h1)
  have b := (Int.lt_zpow_iff_log_lt (b := 2) (by norm_num) hp (x := k + 1)).mp (by exact_mod_cast h2)
  omega

theorem log_bounds {x : ℚ} (hx : x ≠ 0) : (2 : ℚ) ^ Int.log 2 |x| ≤ |x| ∧ |x| < 2 ^ (Int.log 2 |x| + 1) := by
  have hp : 0 < |x| := abs_pos.mpr hx
  exact ⟨by exact_mod_cast Int.zpow_log_le_self (b := 2) (by norm_num) hp,
    by exact_mod_cast Int.lt_zpow_succ_log_self (b := 2) (by norm_num) |x|⟩

/-- Rounding by the exponent and the integer. -/
theorem round_eq (F : Fmt) {x : ℚ} {e m : ℤ} (he : F.emin ≤ e) (h1 : (2 : ℚ) ^ (e + (F.p - 1)) ≤ |x|)
    (h2 : |x| < 2 ^ (e + F.p)) (hm : |x - m * 2 ^ e| < 2 ^ e / 2) : F.round x = m * 2 ^ e := by
  have hx : x ≠ 0 := by
    rintro rfl
    rw [abs_zero] at h1
    exact absurd (two_zpow_pos _) (not_lt.mpr h1)
  have hl : Int.log 2 |x| = e + (F.p - 1) := log_spec hx h1 (by rw [show e + ((F.p : ℤ) - 1) + 1 = e + F.p by ring]; exact h2)
  have hexp : F.expo x = e := by unfold Fmt.expo; rw [hl]; simp [he]
  unfold Fmt.round
  rw [hexp]
  have hp := two_zpow_pos e
  rw [show roundEven (x / 2 ^ e) = m from roundEven_eq ?_]
  rw [show x / 2 ^ e - m = (x - m * 2 ^ e) / 2 ^ e by field_simp, abs_div, abs_of_pos hp, div_lt_iff₀ hp]
  linarith

/-- The relative error of a number that is not tiny. -/
theorem round_rel (F : Fmt) {x : ℚ} (h : (2 : ℚ) ^ (F.emin + (F.p - 1)) ≤ |x|) : |x - F.round x| ≤ |x| / 2 ^ F.p := by
  have hx : x ≠ 0 := by
    rintro rfl
    rw [abs_zero] at h
    exact absurd (two_zpow_pos _) (not_lt.mpr h)
  obtain ⟨h1, h2⟩ := log_bounds hx
  have hle : F.emin + ((F.p : ℤ) - 1) ≤ Int.log 2 |x| :=
    (Int.zpow_le_iff_le_log (b := 2) (by norm_num) (abs_pos.mpr hx)).mp (by exact_mod_cast h)
  have hexp : F.expo x = Int.log 2 |x| - (F.p - 1) := by unfold Fmt.expo; omega
  refine (round_err F x).trans ?_
  rw [hexp, div_le_div_iff₀ (by norm_num) (by positivity)]
  have : (2 : ℚ) ^ (Int.log 2 |x| - ((F.p : ℤ) - 1)) * 2 ^ F.p = 2 ^ Int.log 2 |x| * 2 := by
    rw [← zpow_natCast, ← zpow_add₀ (by norm_num), ← zpow_add_one₀ (by norm_num)]
    congr 1; ring
  rw [this]; linarith

/-- What is in the format is not changed. -/
theorem round_rep (F : Fmt) {y : ℚ} (h : F.Rep y) : F.round y = y := by
  obtain ⟨m, e, hm, he, rfl⟩ := h
  by_cases hm0 : m = 0
  · subst hm0; simpa using round_zero F
  · set y : ℚ := m * 2 ^ e with hy
    have hpe := two_zpow_pos e
    have hy0 : y ≠ 0 := mul_ne_zero (by exact_mod_cast hm0) hpe.ne'
    obtain ⟨h1, h2⟩ := log_bounds hy0
    have habs : |y| = (|m| : ℤ) * 2 ^ e := by rw [hy, abs_mul, abs_of_pos hpe]; push_cast; rfl
    have hlt : |y| < 2 ^ (F.p + e) := by
      rw [habs, zpow_add₀ (by norm_num)]
      have : ((|m| : ℤ) : ℚ) < 2 ^ (F.p : ℤ) := by rw [zpow_natCast]; exact_mod_cast hm
      gcongr
    have hlog : Int.log 2 |y| < F.p + e := by
      have : (2 : ℚ) ^ Int.log 2 |y| < 2 ^ (F.p + e) := lt_of_le_of_lt h1 hlt
      exact (zpow_lt_zpow_iff_right₀ (by norm_num)).mp this
    have hexp : F.expo y ≤ e := by unfold Fmt.expo; omega
    obtain ⟨d, hd⟩ := Int.eq_ofNat_of_zero_le (show 0 ≤ e - F.expo y by omega)
    have : y / 2 ^ F.expo y = ((m * 2 ^ d : ℤ) : ℚ) := by
      rw [hy, mul_div_assoc, ← zpow_sub₀ (by norm_num), hd]
      push_cast
      rfl
    unfold Fmt.round
    rw [this, roundEven_int, ← this]
    field_simp

/-- What is found is in the format. -/
theorem round_isRep (F : Fmt) (hp : 1 ≤ F.p) (x : ℚ) : F.Rep (F.round x) := by
  by_cases hx : x = 0
  · subst hx
    rw [round_zero]
    exact ⟨0, F.emin, by simp, le_refl _, by simp⟩
  obtain ⟨h1, h2⟩ := log_bounds hx
  have hpe := two_zpow_pos (F.expo x)
  have hge : F.emin ≤ F.expo x := by unfold Fmt.expo; omega
  have hlog : Int.log 2 |x| + 1 ≤ F.p + F.expo x := by unfold Fmt.expo; omega
  have hlt : |x / 2 ^ F.expo x| < 2 ^ F.p := by
    rw [abs_div, abs_of_pos hpe, div_lt_iff₀ hpe, ← zpow_natCast, ← zpow_add₀ (by norm_num)]
    exact lt_of_lt_of_le h2 (zpow_le_zpow_right₀ (by norm_num) hlog)
  have hm : |roundEven (x / 2 ^ F.expo x)| ≤ 2 ^ F.p := by
    have he := roundEven_err (x / 2 ^ F.expo x)
    rw [abs_le] at he
    rw [abs_lt] at hlt
    have a : ((roundEven (x / 2 ^ F.expo x) : ℤ) : ℚ) < 2 ^ F.p + 1 := by linarith
    have b : -(2 ^ F.p + 1 : ℚ) < ((roundEven (x / 2 ^ F.expo x) : ℤ) : ℚ) := by linarith
    have a' : roundEven (x / 2 ^ F.expo x) < 2 ^ F.p + 1 := by exact_mod_cast a
    have b' : -(2 ^ F.p + 1) < roundEven (x / 2 ^ F.expo x) := by exact_mod_cast b
    rw [abs_le]; constructor <;> omega
  by_cases hm' : |roundEven (x / 2 ^ F.expo x)| < 2 ^ F.p
  · exact ⟨_, _, hm', hge, rfl⟩
  · obtain ⟨q, hq⟩ : ∃ q, F.p = q + 1 := ⟨F.p - 1, by omega⟩
    have e : |roundEven (x / 2 ^ F.expo x)| = 2 ^ F.p := le_antisymm hm (not_lt.mp hm')
    have e2 : (2 : ℤ) ^ F.p = 2 * 2 ^ q := by rw [hq, pow_succ]; ring
    have hq0 : (0 : ℤ) < 2 ^ q := by positivity
    rcases abs_choice (roundEven (x / 2 ^ F.expo x)) with h | h
    · refine ⟨2 ^ q, F.expo x + 1, ?_, by omega, ?_⟩
      · rw [abs_of_pos hq0, e2]; omega
      · unfold Fmt.round
        rw [show roundEven (x / 2 ^ F.expo x) = 2 * 2 ^ q by omega, zpow_add_one₀ (by norm_num)]
        push_cast; ring
    · refine ⟨-2 ^ q, F.expo x + 1, ?_, by omega, ?_⟩
      · rw [abs_neg, abs_of_pos hq0, e2]; omega
      · unfold Fmt.round
        rw [show roundEven (x / 2 ^ F.expo x) = -(2 * 2 ^ q) by omega, zpow_add_one₀ (by norm_num)]
        push_cast; ring

theorem roundEven_nearest (y : ℚ) (k : ℤ) : |y - roundEven y| ≤ |y - k| := by
  by_cases h : |y - k| < 1 / 2
  · rw [roundEven_eq h]
  · exact (roundEven_err y).trans (not_lt.mp h)

theorem round_multiple (F : Fmt) (x : ℚ) (k : ℤ) : |x - F.round x| ≤ |x - k * 2 ^ F.expo x| := by
  have hpe := two_zpow_pos (F.expo x)
  have h := roundEven_nearest (x / 2 ^ F.expo x) k
  have e : ∀ j : ℤ, x - j * 2 ^ F.expo x = (x / 2 ^ F.expo x - j) * 2 ^ F.expo x := by intro j; field_simp
  unfold Fmt.round
  rw [e, e, abs_mul, abs_mul]
  gcongr

/-- Nothing in the format is nearer. -/
theorem round_nearest (F : Fmt) (hp : 1 ≤ F.p) (x z : ℚ) (hz : F.Rep z) : |x - F.round x| ≤ |x - z| := by
  by_cases hx : x = 0
  · subst hx; rw [round_zero]; simp
  obtain ⟨m, e, hm, he, rfl⟩ := hz
  by_cases hle : F.expo x ≤ e
  · obtain ⟨d, hd⟩ := Int.eq_ofNat_of_zero_le (show 0 ≤ e - F.expo x by omega)
    have : (m : ℚ) * 2 ^ e = ((m * 2 ^ d : ℤ) : ℚ) * 2 ^ F.expo x := by
      push_cast
      rw [mul_assoc, ← zpow_natCast, ← zpow_add₀ (by norm_num)]
      congr 2
      omega
    rw [this]
    exact round_multiple F x _
  · obtain ⟨h1, h2⟩ := log_bounds hx
    have hexp : F.expo x = Int.log 2 |x| - (F.p - 1) := by unfold Fmt.expo at *; omega
    have hz : |(m : ℚ) * 2 ^ e| ≤ 2 ^ Int.log 2 |x| := by
      rw [abs_mul, abs_of_pos (two_zpow_pos e)]
      have a : |(m : ℚ)| < 2 ^ F.p := by exact_mod_cast hm
      calc |(m : ℚ)| * 2 ^ e ≤ 2 ^ F.p * 2 ^ e := by gcongr
        _ = 2 ^ ((F.p : ℤ) + e) := by rw [← zpow_natCast, ← zpow_add₀ (by norm_num)]
        _ ≤ _ := zpow_le_zpow_right₀ (by norm_num) (by omega)
    obtain ⟨q, hq⟩ : ∃ q, F.p = q + 1 := ⟨F.p - 1, by omega⟩
    have hB : (2 : ℚ) ^ Int.log 2 |x| = ((2 ^ q : ℤ) : ℚ) * 2 ^ F.expo x := by
      push_cast
      rw [← zpow_natCast, ← zpow_add₀ (by norm_num), hexp]
      congr 1; omega
    rcases le_or_gt 0 x with h0 | h0
    · refine (round_multiple F x (2 ^ q)).trans ?_
      rw [← hB]
      rw [abs_of_nonneg h0] at h1 h2 ⊢
      rw [abs_of_nonneg h0] at hz
      have := le_abs_self ((m : ℚ) * 2 ^ e)
      rw [abs_of_nonneg (by linarith), abs_of_nonneg (by linarith)]
      linarith
    · refine (round_multiple F x (-2 ^ q)).trans ?_
      push_cast at hB ⊢
      rw [neg_mul, ← hB]
      rw [abs_of_neg h0] at h1 h2 ⊢
      rw [abs_of_neg h0] at hz
      have := neg_abs_le ((m : ℚ) * 2 ^ e)
      rw [abs_of_nonpos (by linarith), abs_of_nonpos (by linarith)]
      linarith

/-- Of two equally near, the one with an even last bit. -/
theorem round_even (F : Fmt) (x : ℚ) (h : |x - F.round x| = 2 ^ F.expo x / 2) :
    ∃ k : ℤ, F.round x = (2 * k : ℤ) * 2 ^ F.expo x := by
  have hpe := two_zpow_pos (F.expo x)
  have e : x - F.round x = (x / 2 ^ F.expo x - roundEven (x / 2 ^ F.expo x)) * 2 ^ F.expo x := by
    unfold Fmt.round
    field_simp
  have h' : |x / 2 ^ F.expo x - roundEven (x / 2 ^ F.expo x)| = 1 / 2 := by
    rw [e, abs_mul, abs_of_pos hpe] at h
    have : |x / 2 ^ F.expo x - roundEven (x / 2 ^ F.expo x)| * 2 ^ F.expo x = 1 / 2 * 2 ^ F.expo x := by rw [h]; ring
    exact mul_right_cancel₀ hpe.ne' this
  have key : ∀ y : ℚ, |y - roundEven y| = 1 / 2 → roundEven y % 2 = 0 := by
    intro y hy
    have h1 := Int.floor_le y
    have h2 := Int.lt_floor_add_one y
    unfold roundEven at hy ⊢
    split at hy
    · rw [abs_of_nonneg (by linarith)] at hy; linarith
    · rename_i ha
      split at hy
      · push_cast at hy; rw [abs_of_nonpos (by linarith)] at hy; linarith
      · rename_i hb
        rw [if_neg ha, if_neg hb]
        split <;> omega
  have := key _ h'
  exact ⟨roundEven (x / 2 ^ F.expo x) / 2, by
    unfold Fmt.round
    rw [Int.mul_ediv_cancel' (Int.dvd_of_emod_eq_zero this)]⟩

theorem round_neg_zero (F : Fmt) {x : ℚ} (h : (2 : ℚ) ^ (F.emin + (F.p - 1)) ≤ |x|) (hp : 1 ≤ F.p) : F.round x ≠ 0 := by
  intro h0
  have := round_rel F h
  rw [h0, sub_zero] at this
  have hx : 0 < |x| := lt_of_lt_of_le (two_zpow_pos _) h
  have h2 : (2 : ℚ) ≤ 2 ^ F.p := by
    calc (2 : ℚ) = 2 ^ 1 := by norm_num
      _ ≤ 2 ^ F.p := pow_le_pow_right₀ (by norm_num) hp
  rw [le_div_iff₀ (by positivity)] at this
  nlinarith

/-- Integers up to the precision are in the format. -/
theorem round_int (F : Fmt) (h0 : F.emin ≤ 0) {n : ℤ} (h : |n| < 2 ^ F.p) : F.round n = n :=
  round_rep F ⟨n, 0, h, h0, by simp⟩

end Argo.Float
