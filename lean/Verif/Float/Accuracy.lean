import Verif.Float.Text

set_option autoImplicit false

/-! # How far the numbers of deltas are from what was on the bus -/

namespace Argo.Float

open Argo
open Argo.Nmea2k (Res Val)
open Argo.Signalk (Str bs)

/-! ## Errors -/

/-- What is rounded to a number that is not tiny is near to it. -/
theorem round_inv_rel (F : Fmt) {q x : ℚ} (h : F.round q = x) (hx : (2 : ℚ) ^ (F.emin + F.p) ≤ |x|) (hp : 1 ≤ F.p) :
    |q - x| ≤ |q| / 2 ^ F.p := by
  by_cases hq : (2 : ℚ) ^ (F.emin + (F.p - 1)) ≤ |q|
  · rw [← h]; exact round_rel F hq
  · exfalso
    have hq := not_le.mp hq
    have hpos := two_zpow_pos (F.emin + F.p)
    have hq0 : q ≠ 0 := by
      rintro rfl
      rw [round_zero] at h
      rw [← h, abs_zero] at hx
      linarith
    have hl : Int.log 2 |q| < F.emin + (F.p - 1) :=
      (Int.lt_zpow_iff_log_lt (b := 2) (by norm_num) (abs_pos.mpr hq0)).mp (by exact_mod_cast hq)
    have he : F.expo q = F.emin := by unfold Fmt.expo; omega
    have herr := round_err F q
    rw [he, h] at herr
    have h1 : (2 : ℚ) ^ (F.emin + F.p) = 2 ^ (F.emin + (F.p - 1)) + 2 ^ (F.emin + (F.p - 1)) := by
      rw [show F.emin + (F.p : ℤ) = F.emin + (F.p - 1) + 1 by ring, zpow_add_one₀ (by norm_num)]; ring
    have h2 : (2 : ℚ) ^ F.emin ≤ 2 ^ (F.emin + (F.p - 1)) := zpow_le_zpow_right₀ (by norm_num) (by omega)
    have h3 := abs_sub_abs_le_abs_sub x q
    rw [abs_sub_comm] at h3
    have h4 := two_zpow_pos F.emin
    linarith

/-- `a` is `b` up to a relative error of `ε`. -/
def Near (ε a b : ℚ) : Prop := |a - b| ≤ ε * |b|

theorem Near.mul {ε δ a b c d : ℚ} (h1 : Near ε a b) (h2 : Near δ c d) (hε : 0 ≤ ε) :
    Near (ε + δ + ε * δ) (a * c) (b * d) := by
  unfold Near at *
  have e : a * c - b * d = (a - b) * (c - d) + (a - b) * d + b * (c - d) := by ring
  rw [e, abs_mul]
  calc |(a - b) * (c - d) + (a - b) * d + b * (c - d)| ≤ |a - b| * |c - d| + |a - b| * |d| + |b| * |c - d| := by
        refine (abs_add_le _ _).trans ?_
        rw [abs_mul b]
        gcongr
        refine (abs_add_le _ _).trans ?_
        rw [abs_mul, abs_mul]
    _ ≤ (ε * |b|) * (δ * |d|) + (ε * |b|) * |d| + |b| * (δ * |d|) := by gcongr
    _ = _ := by ring

theorem Near.trans {ε δ a b c : ℚ} (h1 : Near ε a b) (h2 : Near δ b c) (hε : 0 ≤ ε) :
    Near (ε + δ + ε * δ) a c := by
  unfold Near at *
  have h3 := abs_sub_abs_le_abs_sub b c
  have h4 := abs_sub_le a b c
  have : ε * |b| ≤ ε * (|c| + δ * |c|) := by gcongr; linarith
  nlinarith

theorem Near.mono {ε δ a b : ℚ} (h : Near ε a b) (hle : ε ≤ δ) : Near δ a b := by
  unfold Near at *
  exact h.trans (by gcongr)

/-- One rounding. -/
theorem near_round (F : Fmt) {x : ℚ} (h : (2 : ℚ) ^ (F.emin + (F.p - 1)) ≤ |x|) : Near (1 / 2 ^ F.p) (F.round x) x := by
  unfold Near
  rw [abs_sub_comm]
  refine (round_rel F h).trans (le_of_eq (by ring))

/-- A decimal number that is rounded to `x`. -/
theorem near_text (F : Fmt) {q x : ℚ} (h : F.round q = x) (hx : (2 : ℚ) ^ (F.emin + F.p) ≤ |x|) (hp : 2 ≤ F.p) :
    Near (1 / (2 ^ F.p - 1)) q x := by
  have h1 := round_inv_rel F h hx (by omega)
  unfold Near
  have h2 := abs_sub_abs_le_abs_sub q x
  have hP : (4 : ℚ) ≤ 2 ^ F.p := by
    calc (4 : ℚ) = 2 ^ 2 := by norm_num
      _ ≤ _ := pow_le_pow_right₀ (by norm_num) hp
  rw [le_div_iff₀ (by linarith)] at h1
  rw [div_mul_eq_mul_div, one_mul, le_div_iff₀ (by linarith)]
  nlinarith

/-! ## The three kinds of floats -/

/-- What a text printed for `x` says. -/
theorem text_round {F : Fmt} {x : ℚ} {t : Str} (h : FloatText F x t) :
    Json.IsNumber t ∧ F.round |decimal t| = |x| ∧ (0 ≤ x → 0 ≤ decimal t) ∧ (x ≤ 0 → decimal t ≤ 0) ∧
      ∃ m k, Shortest F |x| m k ∧ decimal t = (if x < 0 then -1 else 1) * (m * 10 ^ k) := by
  obtain ⟨m, k, hs, rfl⟩ := h
  obtain ⟨h1, h2⟩ := layout_spec F x hs.zero
  have h0 : (0 : ℚ) ≤ m * 10 ^ k := by positivity
  refine ⟨h1, ?_, ?_, ?_, m, k, hs, h2⟩
  · rw [h2]
    split
    · rw [neg_one_mul, abs_neg, abs_of_nonneg h0, hs.exact]
    · rw [one_mul, abs_of_nonneg h0, hs.exact]
  · intro hx
    rw [h2, if_neg (not_lt.mpr hx), one_mul]; exact h0
  · intro hx
    rw [h2]
    split
    · linarith
    · rename_i hx'
      have hx0 : x = 0 := le_antisymm hx (not_lt.mp hx')
      have := hs.fewest 0 0 0 (by rw [hx0]; simp [round_zero]) (by norm_num)
      have hm : m = 0 := by simpa using this
      rw [hm]; simp

/-- A text is near to what it was printed for. -/
theorem near_decimal {F : Fmt} {x : ℚ} {t : Str} (h : FloatText F x t) (hx : (2 : ℚ) ^ (F.emin + F.p) ≤ |x|) (hp : 2 ≤ F.p) :
    Near (1 / (2 ^ F.p - 1)) (decimal t) x := by
  obtain ⟨_, h1, h2, h3, _⟩ := text_round h
  have := near_text F h1 (by rwa [abs_abs]) hp
  unfold Near at *
  rw [abs_abs] at this
  rcases le_total 0 x with h0 | h0
  · rw [abs_of_nonneg (h2 h0), abs_of_nonneg h0] at this
    rwa [abs_of_nonneg h0]
  · have e : |decimal t| - |x| = -(decimal t - x) := by rw [abs_of_nonpos (h3 h0), abs_of_nonpos h0]; ring
    rwa [e, abs_neg] at this

theorem decimal_zero {F : Fmt} {t : Str} (h : FloatText F 0 t) : decimal t = 0 := by
  obtain ⟨_, _, h2, h3, _⟩ := text_round h
  exact le_antisymm (h3 (le_refl _)) (h2 (le_refl _))

theorem Near.lower {ε a b : ℚ} (h : Near ε a b) (hε : ε ≤ 1 / 2) : |b| / 2 ≤ |a| := by
  unfold Near at h
  have := abs_sub_abs_le_abs_sub b a
  rw [abs_sub_comm] at this
  nlinarith [abs_nonneg b]

theorem int_one_le {n : ℤ} (h : n ≠ 0) : (1 : ℚ) ≤ |(n : ℚ)| := by
  have : 1 ≤ |n| := Int.one_le_abs h
  exact_mod_cast this

theorem tiny_le {e : ℤ} (he : e ≤ -100) {x : ℚ} (hx : 1 / 2 ^ 90 ≤ |x|) : (2 : ℚ) ^ e ≤ |x| := by
  refine le_trans ?_ hx
  calc (2 : ℚ) ^ e ≤ 2 ^ (-90 : ℤ) := zpow_le_zpow_right₀ (by norm_num) (by omega)
    _ = _ := by norm_num

/-- A number times a factor, both rounded, and the product. -/
theorem near_product {n : ℤ} (hn : n ≠ 0) {c : ℚ} (hc : 1 / 2 ^ 40 ≤ |c|) :
    Near (4 / 2 ^ 53) (double.round (double.round n * double.round c)) (n * c) ∧
      1 / 2 ^ 60 ≤ |double.round (double.round n * double.round c)| := by
  have h1 : Near (1 / 2 ^ 53) (double.round n) n :=
    near_round double (tiny_le (by simp only [double]; norm_num) (le_trans (by norm_num) (int_one_le hn)))
  have h2 : Near (1 / 2 ^ 53) (double.round c) c :=
    near_round double (tiny_le (by simp only [double]; norm_num) (le_trans (by norm_num) hc))
  have l1 := h1.lower (by norm_num)
  have l2 := h2.lower (by norm_num)
  have hn1 := int_one_le hn
  have l3 : 1 / 2 ^ 50 ≤ |double.round (n : ℚ) * double.round c| := by
    rw [abs_mul]
    calc (1 : ℚ) / 2 ^ 50 ≤ (1 / 2) * (1 / 2 ^ 40 / 2) := by norm_num
      _ ≤ _ := by gcongr <;> linarith
  have h3 : Near (1 / 2 ^ 53) (double.round (double.round n * double.round c)) (double.round n * double.round c) :=
    near_round double (tiny_le (by simp only [double]; norm_num) (le_trans (by norm_num) l3))
  have l4 := h3.lower (by norm_num)
  refine ⟨((h3.trans (h1.mul h2 (by norm_num)) (by norm_num))).mono (by norm_num), ?_⟩
  refine le_trans ?_ l4
  linarith [show (1 : ℚ) / 2 ^ 60 ≤ 1 / 2 ^ 50 / 2 by norm_num]

/-- A number divided by another one, in a format. -/
theorem near_quotient {F : Fmt} (hF : F = double ∨ F = single) {n : ℤ} (hn : n ≠ 0) {d : ℕ} (hd0 : 0 < d)
    (hd : F.round d = d) (hd2 : (d : ℚ) ≤ 2 ^ 60) :
    Near (2 / 2 ^ F.p + 1 / 2 ^ (2 * F.p)) (F.round (F.round n / F.round d)) (n / d) ∧
      1 / 2 ^ 70 ≤ |F.round (F.round n / F.round d)| := by
  have hp : (0 : ℚ) < 1 / 2 ^ F.p ∧ (1 : ℚ) / 2 ^ F.p ≤ 1 / 2 := by
    rcases hF with rfl | rfl <;> simp only [double, single] <;> norm_num
  have he : F.emin + (F.p - 1) ≤ -100 := by rcases hF with rfl | rfl <;> simp only [double, single] <;> norm_num
  have h1 : Near (1 / 2 ^ F.p) (F.round n) n := near_round F (tiny_le he (le_trans (by norm_num) (int_one_le hn)))
  have l1 := h1.lower hp.2
  have hn1 := int_one_le hn
  have hdq : (0 : ℚ) < d := by exact_mod_cast hd0
  rw [hd]
  have h2 : Near (1 / 2 ^ F.p) (F.round n / d) (n / d) := by
    unfold Near at *
    rw [← sub_div, abs_div, abs_div, abs_of_pos hdq, ← mul_div_assoc]
    gcongr
  have l2 : 1 / 2 ^ 65 ≤ |F.round n / d| := by
    rw [abs_div, abs_of_pos hdq, le_div_iff₀ hdq]
    have : (1 : ℚ) / 2 ^ 65 * d ≤ 1 / 2 ^ 65 * 2 ^ 60 := by gcongr
    have h : (1 : ℚ) / 2 ^ 65 * 2 ^ 60 ≤ 1 / 2 := by norm_num
    linarith
  have h3 : Near (1 / 2 ^ F.p) (F.round (F.round n / d)) (F.round n / d) :=
    near_round F (tiny_le he (le_trans (by norm_num) l2))
  have l3 := h3.lower hp.2
  refine ⟨(h3.trans h2 hp.1.le).mono (le_of_eq ?_), ?_⟩
  · rw [pow_mul, pow_two, mul_pow]
    field_simp
    ring
  · refine le_trans ?_ l3
    linarith [show (1 : ℚ) / 2 ^ 70 ≤ 1 / 2 ^ 65 / 2 by norm_num]

end Argo.Float
