import Verif.Signalk.Calendar
import Mathlib.Tactic.IntervalCases

set_option autoImplicit false

/-!
# The Gregorian calendar, counted day by day

The specification of dates: the day after a date, starting on 1 January 1970.  The formulas of the model
(`civil`, `dayNumber`) agree with it.
-/

namespace Argo.Signalk

/-! ## Specification -/

def leapYear (y : Nat) : Prop := y % 4 = 0 ∧ (y % 100 ≠ 0 ∨ y % 400 = 0)

instance (y : Nat) : Decidable (leapYear y) := by unfold leapYear; infer_instance

/-- The number of days of a month. -/
def monthDays (y m : Nat) : Nat :=
  if m = 2 then (if leapYear y then 29 else 28)
  else if m = 4 ∨ m = 6 ∨ m = 9 ∨ m = 11 then 30 else 31

/-- The day after: year, month, day. -/
def nextDay (t : Nat × Nat × Nat) : Nat × Nat × Nat :=
  if t.2.2 < monthDays t.1 t.2.1 then (t.1, t.2.1, t.2.2 + 1)
  else if t.2.1 < 12 then (t.1, t.2.1 + 1, 1)
  else (t.1 + 1, 1, 1)

/-- The date `n` days after 1 January 1970. -/
def calendar : Nat → Nat × Nat × Nat
  | 0 => (1970, 1, 1)
  | n + 1 => nextDay (calendar n)

/-! ## Proofs -/

/-- A date of the calendar. -/
def isDate (y m d : Nat) : Prop := 1 ≤ m ∧ m ≤ 12 ∧ 1 ≤ d ∧ d ≤ monthDays y m

theorem nextDay_date {y m d : Nat} (h : isDate y m d) : isDate (nextDay (y, m, d)).1 (nextDay (y, m, d)).2.1 (nextDay (y, m, d)).2.2 := by
  obtain ⟨h1, h2, h3, h4⟩ := h
  unfold nextDay
  simp only
  split
  · exact ⟨h1, h2, Nat.le_add_left 1 d, ‹_›⟩
  · split
    · refine ⟨by simp only; omega, by simp only; omega, by simp, ?_⟩
      simp only [monthDays]; split
      · split <;> omega
      · split <;> omega
    · refine ⟨by simp, by simp, by simp, ?_⟩
      simp (config := {decide := true}) only [monthDays, if_false]

theorem dayNumber_next {y m d : Nat} (h : isDate y m d) :
    dayNumber (nextDay (y, m, d)).1 (nextDay (y, m, d)).2.1 (nextDay (y, m, d)).2.2 = dayNumber y m d + 1 := by
  obtain ⟨h1, h2, h3, h4⟩ := h
  unfold nextDay
  simp only
  split
  · unfold dayNumber; simp only; push_cast; omega
  · rename_i hlt
    have hd : d = monthDays y m := by omega
    subst hd
    clear hlt h4 h3
    by_cases hl : leapYear y
    · have hl' := hl
      unfold leapYear at hl'
      interval_cases m <;> simp (config := {decide := true}) only [monthDays, hl, if_true, if_false] <;>
        unfold dayNumber <;> simp (config := {decide := true}) only [if_true, if_false] <;> push_cast <;> omega
    · have hl' := hl
      unfold leapYear at hl'
      interval_cases m <;> simp (config := {decide := true}) only [monthDays, hl, if_true, if_false] <;>
        unfold dayNumber <;> simp (config := {decide := true}) only [if_true, if_false] <;> push_cast <;> omega

theorem year_of_era {yoe doy doe : Int} (h0 : 0 ≤ yoe) (h1 : yoe < 400) (d0 : 0 ≤ doy) (d1 : doy ≤ 365)
    (hl : doy = 365 → (yoe + 1) % 4 = 0 ∧ ((yoe + 1) % 100 ≠ 0 ∨ (yoe + 1) % 400 = 0))
    (hd : doe = yoe * 365 + yoe / 4 - yoe / 100 + doy) :
    0 ≤ doe ∧ doe < 146097 ∧ (doe - doe / 1460 + doe / 36524 - doe / 146096) / 365 = yoe := by
  obtain ⟨c, hc⟩ : ∃ c, c = yoe / 100 := ⟨_, rfl⟩
  obtain ⟨b, hb⟩ : ∃ b, b = yoe / 4 - 25 * c := ⟨_, rfl⟩
  obtain ⟨w, hw⟩ : ∃ w, w = yoe % 4 := ⟨_, rfl⟩
  have hy : yoe = 100 * c + 4 * b + w := by omega
  have c0 : 0 ≤ c := by omega
  have c1 : c ≤ 3 := by omega
  have b0 : 0 ≤ b := by omega
  have b1 : b ≤ 24 := by omega
  have w0 : 0 ≤ w := by omega
  have w1 : w ≤ 3 := by omega
  have hdoe : doe = 36524 * c + 1461 * b + 365 * w + doy := by omega
  have hl' : doy = 365 → w = 3 ∧ (b ≠ 24 ∨ c = 3) := by intro h; have := hl h; omega
  clear hd hb hc hw hl
  obtain ⟨e, he⟩ : ∃ e, e = (24 * c + b + 365 * w + doy) / 1460 := ⟨_, rfl⟩
  have q1 : doe / 1460 = 25 * c + b + e := by omega
  have b2 : doe < 146097 := by
    by_cases h : doy = 365
    · have := hl' h; omega
    · omega
  by_cases hlast : doe = 146096
  · refine ⟨by omega, b2, ?_⟩
    rw [hlast]
    omega
  have q3 : doe / 146096 = 0 := by omega
  have q2 : doe / 36524 = c := by
    by_cases h : doy = 365
    · have := hl' h; omega
    · omega
  refine ⟨by omega, b2, ?_⟩
  rw [q1, q2, q3]
  have e0 : 0 ≤ e := by omega
  have e1 : e ≤ 1 := by omega
  have e2 : e = 1 → 269 ≤ doy := by omega
  have e3 : doy = 365 → e = 1 := by
    intro h; have := hl' h; omega
  omega

theorem civil_dayNumber {y m d : Nat} (h : isDate y m d) : civil (dayNumber y m d) = ((y : Int), (m : Int), (d : Int)) := by
  obtain ⟨h1, h2, h3, h4⟩ := h
  have key : ∀ (y' mp doy : Int), 0 ≤ doy → doy ≤ 365 →
      (doy = 365 → (y' + 1) % 4 = 0 ∧ ((y' + 1) % 100 ≠ 0 ∨ (y' + 1) % 400 = 0)) →
      mp = (5 * doy + 2) / 153 →
      civil (y' / 400 * 146097 + (y' % 400 * 365 + y' % 400 / 4 - y' % 400 / 100 + doy) - 719468) =
        (if (if mp < 10 then mp + 3 else mp - 9) ≤ 2 then y' + 1 else y', (if mp < 10 then mp + 3 else mp - 9),
          doy - (153 * mp + 2) / 5 + 1) := by
    intro y' mp doy d0 d1 hl hmp
    obtain ⟨e0, e1, e2⟩ := year_of_era (yoe := y' % 400) (doy := doy) (by omega) (by omega) d0 d1
      (fun h => by have := hl h; omega) rfl
    have hy : y' = y' / 400 * 400 + y' % 400 := by omega
    generalize y' / 400 = era at *
    generalize y' % 400 = yoe at *
    generalize hdoe : yoe * 365 + yoe / 4 - yoe / 100 + doy = doe at *
    have q1 : (era * 146097 + doe - 719468 + 719468) / 146097 = era := by omega
    have q2 : (era * 146097 + doe - 719468 + 719468) % 146097 = doe := by omega
    unfold civil
    simp only [q1, q2, e2]
    have q3 : doe - (365 * yoe + yoe / 4 - yoe / 100) = doy := by omega
    rw [q3, ← hmp, show yoe + era * 400 = y' by omega]
  obtain ⟨y', hy'⟩ : ∃ y' : Int, y' = if (m : Int) ≤ 2 then (y : Int) - 1 else y := ⟨_, rfl⟩
  obtain ⟨mp, hmp⟩ : ∃ mp : Int, mp = ((m : Int) + 9) % 12 := ⟨_, rfl⟩
  obtain ⟨doy, hdoy⟩ : ∃ doy : Int, doy = (153 * mp + 2) / 5 + d - 1 := ⟨_, rfl⟩
  have hn : dayNumber y m d = y' / 400 * 146097 + (y' % 400 * 365 + y' % 400 / 4 - y' % 400 / 100 + doy) - 719468 := by
    unfold dayNumber
    simp only
    rw [← hy', ← hmp, ← hdoy]
  have facts : 0 ≤ doy ∧ doy ≤ 365 ∧ (doy = 365 → (y' + 1) % 4 = 0 ∧ ((y' + 1) % 100 ≠ 0 ∨ (y' + 1) % 400 = 0)) ∧
      mp = (5 * doy + 2) / 153 ∧ (if mp < 10 then mp + 3 else mp - 9) = (m : Int) ∧
      (if (m : Int) ≤ 2 then y' + 1 else y') = (y : Int) := by
    by_cases hl : leapYear y
    all_goals
      have hl' := hl
      unfold leapYear at hl'
      interval_cases m <;> simp (config := {decide := true}) only [monthDays, hl, if_true, if_false] at h4 <;>
        simp (config := {decide := true}) only [Nat.cast_ofNat, Nat.cast_one, if_true, if_false] at hy' hmp <;> subst hy' hmp <;>
        norm_num at hdoy <;> subst hdoy <;> (refine ⟨?_, ?_, ?_, ?_, ?_, ?_⟩) <;> first | omega | norm_num
  obtain ⟨f1, f2, f3, f4, f5, f6⟩ := facts
  rw [hn, key y' mp doy f1 f2 f3 f4, f5, f6, hdoy]
  congr 2
  omega

theorem calendar_date (n : Nat) : isDate (calendar n).1 (calendar n).2.1 (calendar n).2.2 := by
  induction n with
  | zero => exact ⟨by decide, by decide, by decide, by decide⟩
  | succ n ih => exact nextDay_date ih

theorem dayNumber_calendar (n : Nat) : dayNumber (calendar n).1 (calendar n).2.1 (calendar n).2.2 = n := by
  induction n with
  | zero => decide
  | succ n ih =>
    have := dayNumber_next (calendar_date n)
    rw [ih] at this
    exact this

/-- The formula is the calendar. -/
theorem civil_calendar (n : Nat) :
    civil n = (((calendar n).1 : Int), ((calendar n).2.1 : Int), ((calendar n).2.2 : Int)) := by
  have := civil_dayNumber (calendar_date n)
  rw [dayNumber_calendar] at this
  exact this

end Argo.Signalk
