import Verif.Signalk.Model
import Mathlib.Tactic.IntervalCases
import Mathlib.Tactic.NormNum

set_option autoImplicit false

/-! # Calendar arithmetic -/

namespace Argo.Signalk

theorem yearDay {doe yoe doy : Int} (h0 : 0 ≤ doe) (h1 : doe < 146097)
    (hy : yoe = (doe - doe / 1460 + doe / 36524 - doe / 146096) / 365)
    (hd : doy = doe - (365 * yoe + yoe / 4 - yoe / 100)) : 0 ≤ doy ∧ doy ≤ 365 := by
  by_cases hl : doe = 146096
  · subst hl; norm_num at hy; subst hy; norm_num at hd; omega
  · have hr : doe / 146096 = 0 := by omega
    rw [hr] at hy
    obtain ⟨b, hb⟩ : ∃ b, b = doe / 1460 := ⟨_, rfl⟩
    obtain ⟨u, hu⟩ : ∃ u, u = doe % 1460 := ⟨_, rfl⟩
    have hdoe : doe = 1460 * b + u := by omega
    have hu0 : 0 ≤ u := by omega
    have hu1 : u < 1460 := by omega
    rw [← hb] at hy
    obtain ⟨c, hc⟩ : ∃ c, c = doe / 36524 := ⟨_, rfl⟩
    rw [← hc] at hy
    have hc0 : 0 ≤ c := by omega
    have hc1 : c ≤ 3 := by omega
    have hcl : 36524 * c ≤ 1460 * b + u := by omega
    have hch : 1460 * b + u < 36524 * c + 36524 := by omega
    obtain ⟨w, hw⟩ : ∃ w, w = (u + c - b) / 365 := ⟨_, rfl⟩
    have hyw : yoe = 4 * b + w := by omega
    have hwl : 365 * w ≤ u + c - b := by omega
    have hwh : u + c - b < 365 * w + 365 := by omega
    have hw0 : -1 ≤ w := by omega
    have hw1 : w ≤ 3 := by omega
    clear hy hw hc hb hu
    subst hyw hdoe
    clear hr hl h0 h1
    interval_cases c <;> interval_cases w <;> omega

/-- The date of a day number has that day number, and a month from 1 to 12. -/
theorem dayNumber_civil (n : Int) :
    dayNumber (civil n).1 (civil n).2.1 (civil n).2.2 = n ∧ 1 ≤ (civil n).2.1 ∧ (civil n).2.1 ≤ 12 := by
  unfold civil dayNumber
  simp only
  have hdoe0 : 0 ≤ (n + 719468) % 146097 := by omega
  have hdoe1 : (n + 719468) % 146097 < 146097 := by omega
  have hsplit : n + 719468 = (n + 719468) / 146097 * 146097 + (n + 719468) % 146097 := by omega
  generalize (n + 719468) / 146097 = era at *
  generalize (n + 719468) % 146097 = doe at *
  obtain ⟨yoe, hyoe⟩ : ∃ y, y = (doe - doe / 1460 + doe / 36524 - doe / 146096) / 365 := ⟨_, rfl⟩
  rw [← hyoe]
  have y0 : 0 ≤ yoe := by omega
  have y1 : yoe < 400 := by omega
  obtain ⟨doy, hdoy⟩ : ∃ y, y = doe - (365 * yoe + yoe / 4 - yoe / 100) := ⟨_, rfl⟩
  rw [← hdoy]
  have hd : 0 ≤ doy ∧ doy ≤ 365 := by
    exact yearDay hdoe0 hdoe1 hyoe hdoy
  have d0 := hd.1
  have d1 := hd.2
  obtain ⟨mp, hmp⟩ : ∃ y, y = (5 * doy + 2) / 153 := ⟨_, rfl⟩
  rw [← hmp]
  have m0 : 0 ≤ mp := by omega
  have m1 : mp < 12 := by omega
  by_cases h10 : mp < 10
  · simp only [h10, if_true]
    have h2 : ¬ (mp + 3 ≤ 2) := by omega
    simp only [h2, if_false]
    refine ⟨?_, by omega, by omega⟩
    have e1 : (yoe + era * 400) / 400 = era := by omega
    have e2 : (yoe + era * 400) % 400 = yoe := by omega
    have e3 : (mp + 3 + 9) % 12 = mp := by omega
    rw [e1, e2, e3]
    omega
  · simp only [h10, if_false]
    have h2 : mp - 9 ≤ 2 := by omega
    simp only [h2, if_true]
    refine ⟨?_, by omega, by omega⟩
    have e1 : (yoe + era * 400 + 1 - 1) / 400 = era := by omega
    have e2 : (yoe + era * 400 + 1 - 1) % 400 = yoe := by omega
    have e3 : (mp - 9 + 9) % 12 = mp := by omega
    rw [e1, e2, e3]
    omega

theorem dayNumber_linear (y m d : Int) : dayNumber y m d = dayNumber y m 1 + (d - 1) := by
  unfold dayNumber; simp only; omega

end Argo.Signalk
