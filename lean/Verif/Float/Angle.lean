import Verif.Float.Exists
import Mathlib.Analysis.Real.Pi.Bounds

set_option autoImplicit false

/-!
# Angles, and a text
-/

namespace Argo.Float

open Argo Argo.Json
open Argo.Nmea2k (Res Val)
open Argo.Signalk (Str bs)

/-- Go's `math.Pi` is π to 19 places. -/
theorem goPi_near : |(goPi : ℝ) - Real.pi| ≤ 1 / 10 ^ 19 := by
  have h1 := Real.pi_gt_d20
  have h2 := Real.pi_lt_d20
  unfold goPi
  push_cast
  rw [abs_le]
  constructor <;> linarith

/-- Degrees of `math.Pi` and of π. -/
theorem radian_near : |(radianToDegree : ℝ) - 180 / Real.pi| ≤ 1 / 2 ^ 60 * (180 / Real.pi) := by
  have h := goPi_near
  have h3 := Real.pi_gt_three
  have hg : (3 : ℝ) < goPi := by unfold goPi; push_cast; norm_num
  unfold radianToDegree
  push_cast
  have e : (180 : ℝ) / goPi - 180 / Real.pi = (Real.pi - goPi) * (1 / goPi) * (180 / Real.pi) := by
    field_simp
  have h0 : (0 : ℝ) < 180 / Real.pi := by positivity
  rw [e, abs_mul, abs_of_pos h0, abs_mul, abs_of_pos (by positivity : (0 : ℝ) < 1 / goPi), abs_sub_comm]
  refine mul_le_mul_of_nonneg_right ?_ h0.le
  have h4 : (1 : ℝ) / goPi ≤ 1 / 3 := one_div_le_one_div_of_le (by norm_num) hg.le
  calc |(goPi : ℝ) - Real.pi| * (1 / goPi) ≤ 1 / 10 ^ 19 * (1 / 3) := by gcongr
    _ ≤ 1 / 2 ^ 60 := by norm_num

/-- **C121** (factors): the factor of a field that is written as a decimal number is that number; the others that are not angles
are the quotients they are written as. -/
theorem C121_factors : (∀ s ∈ ["0.001", "0.004", "0.01", "0.05", "0.1", "10", "1e-6"], constant s = some (decimal (bs s))) ∧
    constant "1.0 / 128" = some (decimal (bs "1.0") / decimal (bs "128")) ∧
    constant "1.0 / 16384" = some (decimal (bs "1.0") / decimal (bs "16384")) ∧
    constant "100.0 / 25000" = some (decimal (bs "100.0") / decimal (bs "25000")) := by
  decide +kernel

/-- **C121** (angles): the number of degrees (per second) a client reads for `n` units on the bus, of 1e-4 radian or of 1e-3/32 or
1e-7/32 radian per second, is that angle, with π itself, within 2^-49 of it. -/
theorem C121_angle {enc : Enc} (hf : Formats enc) {s : String} {u : ℚ}
    (hs : (s, u) ∈ [("RES_DEGREES", (1 / 10 ^ 4 : ℚ)), ("RES_ROTATION", 1 / 10 ^ 3 / 32), ("RES_ROTATION * 0.0001", 1 / 10 ^ 7 / 32)])
    (n : ℤ) :
    |(decimal (enc.float (.f64 n (.scale s))) : ℝ) - n * u * (180 / Real.pi)| ≤
      1 / 2 ^ 49 * |(n * u * (180 / Real.pi) : ℝ)| := by
  obtain ⟨c, hc, hcu⟩ : ∃ c, constant s = some c ∧ c = u * radianToDegree := by
    simp only [List.mem_cons, Prod.mk.injEq, List.not_mem_nil, or_false] at hs
    rcases hs with ⟨rfl, rfl⟩ | ⟨rfl, rfl⟩ | ⟨rfl, rfl⟩
    · exact ⟨resDegrees, by unfold constant constants; simp [List.find?], rfl⟩
    · exact ⟨resRotation, by unfold constant constants; simp [List.find?], rfl⟩
    · exact ⟨resRotation * (1 / 10 ^ 4), by unfold constant constants; simp [List.find?], by unfold resRotation; ring⟩
  have hb := (constant_bounds hc).1
  have hx : number (.f64 n (.scale s)) = some (double.round (double.round n * double.round c)) := by
    simp [number, hc]
  have h := text_scaled (n := n) (by rw [abs_of_nonneg (le_trans (by norm_num) hb)]; exact le_trans (by norm_num) hb)
    (hf.text _ _ hx)
  set t := decimal (enc.float (.f64 n (.scale s))) with ht
  clear_value t
  have h' : |(t : ℝ) - n * c| ≤ 1 / 2 ^ 50 * |(n * c : ℝ)| := by
    have : ((|t - n * c| : ℚ) : ℝ) ≤ ((1 / 2 ^ 50 * |n * c| : ℚ) : ℝ) := by exact_mod_cast h
    push_cast at this
    exact this
  have hr := radian_near
  set w : ℝ := 180 / Real.pi with hw
  have hw0 : 0 < w := by rw [hw]; have := Real.pi_pos; positivity
  clear_value w
  have hd : (c : ℝ) = u * radianToDegree := by rw [hcu]; push_cast; ring
  set q : ℝ := n * u with hq
  have e1 : (n * c : ℝ) = q * radianToDegree := by rw [hd, hq]; ring
  rw [e1] at h'
  clear_value q
  have e2 : |q * (radianToDegree : ℝ) - q * w| ≤ 1 / 2 ^ 60 * |q * w| := by
    rw [← mul_sub, abs_mul, abs_mul, abs_of_pos hw0]
    have := abs_nonneg q
    nlinarith
  have e3 := abs_sub_le (t : ℝ) (q * radianToDegree) (q * w)
  have e4 := abs_sub_abs_le_abs_sub (q * (radianToDegree : ℝ)) (q * w)
  have e5 := abs_nonneg (q * w)
  linarith

/-- What Go prints for 293.15 K. -/
theorem text_293 {enc : Enc} (hf : Formats enc) : enc.float (.f32div 29315 100) = bs "293.15" := by
  have ht := hf.text (.f32div 29315 100) _ rfl
  have hd := text_exact (n := 29315) (d := 100) (by norm_num) (by norm_num) (Or.inl rfl) ht
  obtain ⟨m, k, hs, ht⟩ := ht
  rw [ht] at hd
  have hn : single.round ((29315 : ℤ) : ℚ) = 29315 := by
    exact_mod_cast single_nat (n := 29315) (by norm_num)
  have hd' : single.round ((100 : ℕ) : ℚ) = 100 := by exact_mod_cast single_nat (n := 100) (by norm_num)
  set x := single.round (single.round ((29315 : ℤ) : ℚ) / single.round ((100 : ℕ) : ℚ)) with hx
  have hx' : x = 9605939 * 2 ^ (-15 : ℤ) := by
    rw [hx, hn, hd']
    have := round_eq single (x := 29315 / 100) (e := -15) (m := 9605939) (by simp only [single]; norm_num)
      (by rw [abs_of_pos (by norm_num)]; simp only [single]; norm_num) (by rw [abs_of_pos (by norm_num)]; simp only [single]; norm_num)
      (by norm_num [abs_lt])
    exact_mod_cast this
  have hx0 : 0 < x := by rw [hx']; positivity
  have hl1 : ¬ |x| < single.round (1 / 10 ^ 6) := by
    have := (abs_le.mp (round_rel single (x := 1 / 10 ^ 6) (by
      rw [abs_of_pos (by norm_num)]; simp only [single]; norm_num))).1
    rw [abs_of_pos (by norm_num : (0 : ℚ) < 1 / 10 ^ 6)] at this
    rw [abs_of_pos hx0, hx', not_lt]
    simp only [single] at this ⊢
    norm_num at this ⊢
    linarith
  have hl2 : ¬ single.round (10 ^ 21) ≤ |x| := by
    have := (abs_le.mp (round_rel single (x := 10 ^ 21) (by
      rw [abs_of_pos (by norm_num)]; simp only [single]; norm_num))).2
    rw [abs_of_pos (by norm_num : (0 : ℚ) < 10 ^ 21)] at this
    rw [abs_of_pos hx0, hx', not_le]
    simp only [single] at this ⊢
    norm_num at this ⊢
    linarith
  have hlay : enc.float (.f32div 29315 100) = layoutF m k := by
    rw [ht]
    unfold layout
    rw [if_neg (not_lt.mpr hx0.le), if_neg]
    · rfl
    · rintro ⟨_, h | h⟩
      · exact hl1 h
      · exact hl2 h
  have hval : (m * 10 ^ k : ℚ) = 29315 * 10 ^ (-2 : ℤ) := by
    have := (layout_spec (fmtOf (.f32div 29315 100)) x hs.zero).2
    rw [if_neg (not_lt.mpr hx0.le), one_mul, hd] at this
    rw [← this]; norm_num
  have hm : m < 10 ^ 5 := by
    refine hs.fewest 29315 (-2) 5 ?_ (by norm_num)
    rw [abs_of_pos hx0, hx, hn, hd']
    show single.round _ = _
    congr 1
  have hk : k = -2 ∧ m = 29315 := by
    rcases lt_trichotomy k (-2) with h | h | h
    · exfalso
      obtain ⟨j, hj⟩ := Int.eq_ofNat_of_zero_le (show 0 ≤ -3 - k by omega)
      have hk : (-2 : ℤ) = k + ((j + 1 : ℕ) : ℤ) := by push_cast; omega
      rw [hk, zpow_add₀ (by norm_num), zpow_natCast] at hval
      have hT : (10 : ℚ) ^ k ≠ 0 := by positivity
      have : (m : ℚ) = 29315 * 10 ^ (j + 1) := by
        apply mul_right_cancel₀ hT; rw [hval]; ring
      have : m = 29315 * 10 ^ (j + 1) := by exact_mod_cast this
      have h10 : 0 < 10 ^ j := by positivity
      rw [pow_succ] at this
      omega
    · subst h
      have hT : (10 : ℚ) ^ (-2 : ℤ) ≠ 0 := by positivity
      exact ⟨rfl, by exact_mod_cast mul_right_cancel₀ hT hval⟩
    · exfalso
      obtain ⟨j, hj⟩ := Int.eq_ofNat_of_zero_le (show 0 ≤ k + 1 by omega)
      have hk : k = -2 + ((j + 1 : ℕ) : ℤ) := by push_cast; omega
      rw [hk, zpow_add₀ (by norm_num), zpow_natCast] at hval
      have hT : (10 : ℚ) ^ (-2 : ℤ) ≠ 0 := by positivity
      have : (m : ℚ) * 10 ^ (j + 1) = 29315 := by
        apply mul_right_cancel₀ hT; rw [← hval]; ring
      have : m * 10 ^ (j + 1) = 29315 := by exact_mod_cast this
      rw [pow_succ, ← mul_assoc] at this
      omega
  rw [hlay, hk.1, hk.2]
  decide +kernel

/-- `Formats` can be met (`floatEnc_formats`): so is the tolerance of C121 for a temperature of 293.15 K. -/
example : floatEnc.float (.f32div 29315 100) = bs "293.15" := text_293 floatEnc_formats

example : OnBus (.f32div 29315 100) ∧ quantity (.f32div 29315 100) = some (29315 / 100) ∧ tolerance (.f32div 29315 100) = 0 :=
  ⟨Or.inr ⟨Or.inl rfl, by norm_num, by norm_num⟩, by simp [quantity], by simp [tolerance]⟩

end Argo.Float
