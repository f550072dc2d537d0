import Verif.Float.Props

set_option autoImplicit false

/-!
# Every float has a text

So the hypotheses of C121 and C122 can be met: there is an encoder that formats every float as documented.
-/

namespace Argo.Float

open Argo Argo.Json
open Argo.Nmea2k (Res Val)
open Argo.Signalk (Str bs)

/-- Every number of the format is a decimal number. -/
theorem exists_decimal {F : Fmt} {x : ℚ} (h : F.Rep x) (h0 : 0 ≤ x) : ∃ (m : ℕ) (k : ℤ), (m * 10 ^ k : ℚ) = x := by
  obtain ⟨a, e, _, _, rfl⟩ := h
  have ha : 0 ≤ a := by
    by_contra hn
    have h1 : (a : ℚ) < 0 := by exact_mod_cast not_le.mp hn
    have h2 := two_zpow_pos e
    nlinarith
  obtain ⟨a, rfl⟩ := Int.eq_ofNat_of_zero_le ha
  rcases le_or_gt 0 e with he | he
  · obtain ⟨e, rfl⟩ := Int.eq_ofNat_of_zero_le he
    exact ⟨a * 2 ^ e, 0, by push_cast; simp⟩
  · obtain ⟨e', he'⟩ := Int.eq_ofNat_of_zero_le (show 0 ≤ -e by omega)
    have : e = -(e' : ℤ) := by omega
    subst this
    refine ⟨a * 5 ^ e', -(e' : ℤ), ?_⟩
    push_cast
    have h10 : (10 : ℚ) = 2 * 5 := by norm_num
    rw [zpow_neg, zpow_neg, zpow_natCast, zpow_natCast, h10, mul_pow]
    field_simp

theorem exists_shortest (F : Fmt) {x : ℚ} (h : F.Rep x) (h0 : 0 ≤ x) : ∃ m k, Shortest F x m k := by
  classical
  by_cases hx : x = 0
  · subst hx
    exact ⟨0, 0, by simp [round_zero], fun _ _ n _ _ => by positivity, fun _ => rfl⟩
  have hex : ∃ d : ℕ, ∃ (m : ℕ) (k : ℤ), F.round (m * 10 ^ k) = x ∧ m < 10 ^ d := by
    obtain ⟨m, k, hm⟩ := exists_decimal h h0
    exact ⟨m, m, k, by rw [hm, round_rep F h], Nat.lt_pow_self (by norm_num)⟩
  obtain ⟨m, k, h1, h2⟩ := Nat.find_spec hex
  refine ⟨m, k, h1, fun m' k' n hr hlt => ?_, fun hm => ?_⟩
  · have := Nat.find_min' hex ⟨m', k', hr, hlt⟩
    exact lt_of_lt_of_le h2 (pow_le_pow_right₀ (by norm_num) this)
  · subst hm
    exfalso
    apply hx
    rw [← h1]
    simp [round_zero]

theorem rep_abs {F : Fmt} {x : ℚ} (h : F.Rep x) : F.Rep |x| := by
  obtain ⟨m, e, h1, h2, rfl⟩ := h
  refine ⟨|m|, e, by rwa [abs_abs], h2, ?_⟩
  rw [abs_mul, abs_of_pos (two_zpow_pos e)]
  push_cast
  rfl

/-- Every float has a text. -/
theorem exists_text (F : Fmt) {x : ℚ} (h : F.Rep x) : ∃ t, FloatText F x t := by
  obtain ⟨m, k, hs⟩ := exists_shortest F (rep_abs h) (abs_nonneg x)
  exact ⟨_, m, k, hs, rfl⟩

theorem number_rep {v : Val} {x : ℚ} (h : number v = some x) : (fmtOf v).Rep x := by
  unfold number at h
  split at h
  · obtain ⟨c, _, rfl⟩ := Option.map_eq_some_iff.mp h
    exact round_isRep double (by simp [double]) _
  · injection h with h; subst h
    exact round_isRep single (by simp [single]) _
  · injection h with h; subst h
    exact round_isRep double (by simp [double]) _
  · cases h

open Classical in
/-- A text of a number. -/
noncomputable def someText (F : Fmt) (x : ℚ) : Str := if h : ∃ t, FloatText F x t then h.choose else [48]

/-- `exampleEnc` with texts of floats. -/
noncomputable def floatEnc : Enc := { exampleEnc with float := fun v => (number v).elim [48] (someText (fmtOf v)) }

theorem floatEnc_formats : Formats floatEnc where
  text v x h := by
    have hex := exists_text _ (number_rep h)
    show FloatText (fmtOf v) x ((number v).elim [48] (someText (fmtOf v)))
    rw [h]
    show FloatText (fmtOf v) x (someText (fmtOf v) x)
    unfold someText
    rw [dif_pos hex]
    exact hex.choose_spec
  same v v' x h h' hf := by
    show (number v).elim [48] (someText (fmtOf v)) = (number v').elim [48] (someText (fmtOf v'))
    rw [h, h', hf]

theorem floatEnc_sane : Sane floatEnc where
  float v := by
    cases h : number v with
    | none =>
      have : floatEnc.float v = [48] := by show (number v).elim [48] (someText (fmtOf v)) = _; rw [h]; rfl
      rw [this]; exact (show Json.number [48] = some ([48], []) by decide +kernel)
    | some x => exact (text_round (floatEnc_formats.text v x h)).1
  zone := example_sane.zone
  nowZone := example_sane.nowZone
  nowNs := example_sane.nowNs

theorem floatEnc_local : Local floatEnc where
  date := example_local.date
  time := example_local.time
  year := example_local.year

/-- The texts of Go are numbers of JSON: what C104 supposes of them (`Sane.float`) follows. -/
theorem formats_isNumber {enc : Enc} (hf : Formats enc) {v : Val} {x : ℚ} (h : number v = some x) : IsNumber (enc.float v) :=
  (text_round (hf.text v x h)).1

end Argo.Float
