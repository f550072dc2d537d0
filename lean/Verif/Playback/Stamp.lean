import Verif.Playback.Lines
import Verif.Log.Props
import Verif.Signalk.Gregorian

set_option autoImplicit false

/-! # C126: when a message was recorded -/

namespace Argo.Playback

open Argo
open Argo.Json (Json ascii pad Decimal)
open Argo.Signalk (Time Stamp isDate)

/-! ## Specification -/

/-- A date, a time of day and digits of a fraction of a second. -/
structure Moment where
  year : ℕ
  month : ℕ
  day : ℕ
  hour : ℕ
  minute : ℕ
  second : ℕ
  fraction : List Char

structure Moment.Valid (x : Moment) : Prop where
  date : isDate x.year x.month x.day
  year : x.year ≤ 9999
  hour : x.hour < 24
  minute : x.minute < 60
  second : x.second < 60
  digits : ∀ c ∈ x.fraction, c.isDigit = true
  short : x.fraction.length ≤ 9

/-- The text: `2006-01-02T15:04:05`, then a point and the digits, if there are some. -/
def Moment.Written (x : Moment) (t : List Char) : Prop :=
  ∃ y mo d h mi se, t = y ++ '-' :: mo ++ '-' :: d ++ 'T' :: h ++ ':' :: mi ++ ':' :: se ++ (if x.fraction = [] then [] else '.' :: x.fraction) ∧
    Decimal 4 x.year y ∧ Decimal 2 x.month mo ∧ Decimal 2 x.day d ∧ Decimal 2 x.hour h ∧ Decimal 2 x.minute mi ∧ Decimal 2 x.second se

/-- The instant it is (UTC), and its nanoseconds. -/
def Moment.instant (x : Moment) : Time × ℕ :=
  (⟨Signalk.dayNumber x.year x.month x.day * 86400 + (3600 * x.hour + 60 * x.minute + x.second : ℕ), 0⟩,
    Nat.ofDigitChars 10 x.fraction 0 * 10 ^ (9 - x.fraction.length))

/-! ## Proofs -/

theorem value10_eq (l : List Char) : value10 l = Nat.ofDigitChars 10 l 0 := by
  unfold value10 Nat.ofDigitChars
  rfl

theorem decimal_two {n : ℕ} {l : List Char} (h : Decimal 2 n l) (r : List Char) : two (l ++ r) = some (n, r) := by
  obtain ⟨h1, h2, h3⟩ := h
  match l, h1 with
  | [a, b], _ =>
    simp only [List.cons_append, List.nil_append, two]
    rw [if_pos (by simp [h2 a (by simp), h2 b (by simp)]), value10_eq, h3]

theorem decimal_oneOrTwo {n : ℕ} {l : List Char} (h : Decimal 2 n l) (r : List Char) : oneOrTwo (l ++ r) = some (n, r) := by
  obtain ⟨h1, h2, h3⟩ := h
  match l, h1 with
  | [a, b], _ =>
    simp only [List.cons_append, List.nil_append, oneOrTwo]
    rw [if_pos (h2 a (by simp)), if_pos (h2 b (by simp)), value10_eq, h3]

theorem decimal_year4 {n : ℕ} {l : List Char} (h : Decimal 4 n l) (r : List Char) : year4 (l ++ r) = some (n, r) := by
  obtain ⟨h1, h2, h3⟩ := h
  match l, h1 with
  | [a, b, c, d], _ =>
    simp only [List.cons_append, List.nil_append, year4]
    rw [if_pos (by simp [h2 a (by simp), h2 b (by simp), h2 c (by simp), h2 d (by simp)]), value10_eq, h3]

theorem takeWhile_all {l : List Char} (h : ∀ c ∈ l, c.isDigit = true) : l.takeWhile Char.isDigit = l ∧ l.dropWhile Char.isDigit = [] := by
  induction l with
  | nil => exact ⟨rfl, rfl⟩
  | cons c l ih =>
    obtain ⟨a, b⟩ := ih fun x hx => h x (List.mem_cons_of_mem _ hx)
    rw [List.takeWhile_cons_of_pos (h c (by simp)), List.dropWhile_cons_of_pos (h c (by simp))]
    exact ⟨by rw [a], b⟩

theorem ofDigitChars_lt {l : List Char} (h : ∀ c ∈ l, c.isDigit = true) : Nat.ofDigitChars 10 l 0 < 10 ^ l.length := by
  rw [← value10_eq]
  have key : ∀ (l : List Char), (∀ c ∈ l, c.isDigit = true) → ∀ n, l.foldl (fun n c => 10 * n + (c.toNat - 48)) n < (n + 1) * 10 ^ l.length := by
    intro l
    induction l with
    | nil => intro _ n; simp
    | cons c l ih =>
      intro h n
      have hc := h c (by simp)
      have hc : c.toNat - 48 ≤ 9 := by
        simp only [Char.isDigit, Bool.and_eq_true, decide_eq_true_eq] at hc
        have := hc.2
        have h2 : c.toNat ≤ 57 := by
          have := UInt32.le_iff_toNat_le.mp this
          exact this
        omega
      rw [List.foldl_cons, List.length_cons]
      refine lt_of_lt_of_le (ih (fun x hx => h x (List.mem_cons_of_mem _ hx)) _) ?_
      rw [pow_succ]
      calc (10 * n + (c.toNat - 48) + 1) * 10 ^ l.length ≤ ((n + 1) * 10) * 10 ^ l.length := Nat.mul_le_mul_right _ (by omega)
        _ = (n + 1) * (10 ^ l.length * 10) := by ring
  have := key l h 0
  unfold value10
  simpa using this

theorem fraction_eq (newer : Bool) {ds : List Char} (h : ∀ c ∈ ds, c.isDigit = true) (hs : ds.length ≤ 9) :
    fraction newer (if ds = [] then [] else '.' :: ds) = some (Nat.ofDigitChars 10 ds 0 * 10 ^ (9 - ds.length), []) := by
  cases ds with
  | nil => simp [fraction, Nat.ofDigitChars]
  | cons d r =>
    rw [if_neg (by simp)]
    unfold fraction
    simp only
    rw [if_pos ⟨Or.inl trivial, h d (by simp)⟩, (takeWhile_all h).1, (takeWhile_all h).2]
    have hl := ofDigitChars_lt h
    have : nanoseconds newer (d :: r) = some (Nat.ofDigitChars 10 (d :: r) 0 * 10 ^ (9 - (d :: r).length)) := by
      unfold nanoseconds
      split
      · rw [List.take_of_length_le hs, value10_eq]
      · rw [if_pos, value10_eq]
        rw [value10_eq]
        exact lt_of_lt_of_le hl (Nat.pow_le_pow_right (by norm_num) hs)
    rw [this]; rfl

theorem daysIn_eq (m y : ℕ) : daysIn m y = Signalk.monthDays y m := by
  unfold daysIn Signalk.monthDays Signalk.leapYear
  rfl

/-- A text in the layout is read as the instant it is. -/
theorem parseTime_written (newer : Bool) {x : Moment} (hx : x.Valid) {t : List Char} (h : x.Written t) : parseTime newer t = some x.instant := by
  obtain ⟨y, mo, d, ho, mi, se, rfl, h1, h2, h3, h4, h5, h6⟩ := h
  obtain ⟨⟨d1, d2, d3, d4⟩, v2, v3, v4, v5, v6, v7⟩ := hx
  unfold parseTime
  simp only [List.append_assoc, List.cons_append]
  have g : ∀ {p : Prop} [Decidable p], p → (guard p : Option Unit) = some () := by
    intro p _ h
    unfold guard
    rw [if_pos h]; rfl
  simp only [decimal_year4 h1, lit, if_true, Option.bind_eq_bind, Option.bind_some, decimal_two h2, decimal_two h3, decimal_oneOrTwo h4, decimal_two h5,
    decimal_two h6, fraction_eq newer v6 v7]
  rw [g (by omega), g (by omega), g (by omega), g (by omega)]
  simp only [Option.bind_some]
  rw [g trivial, g (by rw [daysIn_eq]; omega)]
  simp only [Option.bind_some, Option.some.injEq]
  unfold Moment.instant
  rw [Prod.mk.injEq]
  refine ⟨?_, rfl⟩
  unfold Time.date
  have e1 : ((x.month : ℤ) - 1) / 12 = 0 := by omega
  have e2 : ((x.month : ℤ) - 1) % 12 + 1 = x.month := by omega
  rw [e1, e2, add_zero]
  have e3 : Signalk.dayNumber x.year x.month 1 + ((x.day : ℤ) - 1) = Signalk.dayNumber x.year x.month x.day := by
    unfold Signalk.dayNumber
    simp only
    omega
  rw [e3, sub_zero]

/-- The components of the instant are those of the moment. -/
theorem instant_stamp {x : Moment} (hx : x.Valid) : x.instant.1.stamp =
    ⟨x.year, x.month, x.day, x.hour, x.minute, x.second, 0⟩ := by
  obtain ⟨hd, v2, v3, v4, v5, v6, v7⟩ := hx
  have hday : x.instant.1.day = Signalk.dayNumber x.year x.month x.day := by
    unfold Time.day Moment.instant
    simp only
    omega
  have hclock : x.instant.1.clock = (3600 * x.hour + 60 * x.minute + x.second : ℕ) := by
    unfold Time.clock Moment.instant
    simp only
    omega
  unfold Time.stamp
  rw [hday, hclock, Signalk.civil_dayNumber hd]
  simp only [Stamp.mk.injEq, true_and]
  refine ⟨?_, ?_, ?_, rfl⟩ <;> push_cast <;> omega

/-! ## What is refused -/

/-- The characters of a text in the layout. -/
def usual (c : Char) : Bool := c.isDigit || c == '-' || c == 'T' || c == ':' || c == '.' || c == ','

theorem lit_odd {c x : Char} {s r : List Char} (hx : usual x = true) (h : lit x s = some r) (hc : usual c = false) (hm : c ∈ s) : c ∈ r := by
  cases s with
  | nil => cases h
  | cons a s =>
    simp only [lit] at h
    split at h
    · next he =>
      rw [← Option.some.inj h]
      rcases List.mem_cons.mp hm with rfl | hm
      · rw [he, hx] at hc; cases hc
      · exact hm
    · cases h

theorem digit_usual {c x : Char} (hx : x.isDigit = true) (hc : usual c = false) : c ≠ x := by
  rintro rfl
  simp [usual, hx] at hc

theorem two_odd {c : Char} {s r : List Char} {n : ℕ} (h : two s = some (n, r)) (hc : usual c = false) (hm : c ∈ s) : c ∈ r := by
  match s with
  | [] => cases h
  | [_] => cases h
  | a :: b :: s =>
    simp only [two] at h
    split at h
    · next hd =>
      rw [Bool.and_eq_true] at hd
      rw [← (Prod.mk.inj (Option.some.inj h)).2]
      simpa [digit_usual hd.1 hc, digit_usual hd.2 hc] using hm
    · cases h

theorem year4_odd {c : Char} {s r : List Char} {n : ℕ} (h : year4 s = some (n, r)) (hc : usual c = false) (hm : c ∈ s) : c ∈ r := by
  match s with
  | [] => cases h
  | [_] => cases h
  | [_, _] => cases h
  | [_, _, _] => cases h
  | a :: b :: e :: d :: s =>
    simp only [year4] at h
    split at h
    · next hd =>
      simp only [List.all_cons, List.all_nil, Bool.and_true, Bool.and_eq_true] at hd
      rw [← (Prod.mk.inj (Option.some.inj h)).2]
      simpa [digit_usual hd.1 hc, digit_usual hd.2.1 hc, digit_usual hd.2.2.1 hc, digit_usual hd.2.2.2 hc] using hm
    · cases h

theorem oneOrTwo_odd {c : Char} {s r : List Char} {n : ℕ} (h : oneOrTwo s = some (n, r)) (hc : usual c = false) (hm : c ∈ s) : c ∈ r := by
  match s with
  | [] => cases h
  | [a] =>
    simp only [oneOrTwo] at h
    split at h
    · next hd => exact absurd (List.mem_singleton.mp hm) (digit_usual hd hc)
    · cases h
  | a :: b :: s =>
    simp only [oneOrTwo] at h
    split at h
    · next hd =>
      split at h
      · next hd2 =>
        rw [← (Prod.mk.inj (Option.some.inj h)).2]
        simpa [digit_usual hd hc, digit_usual hd2 hc] using hm
      · rw [← (Prod.mk.inj (Option.some.inj h)).2]
        simpa [digit_usual hd hc] using hm
    · cases h

theorem fraction_odd {newer : Bool} {c : Char} {s r : List Char} {n : ℕ} (h : fraction newer s = some (n, r)) (hc : usual c = false) (hm : c ∈ s) : c ∈ r := by
  unfold fraction at h
  split at h
  · next p d s =>
    split at h
    · next hp =>
      rw [Option.map_eq_some_iff] at h
      obtain ⟨k, _, h⟩ := h
      rw [← (Prod.mk.inj h).2]
      have hcp : c ≠ p := by
        rintro rfl
        rcases hp.1 with rfl | ⟨_, rfl⟩ <;> revert hc <;> decide
      have hm : c ∈ d :: s := by
        rcases List.mem_cons.mp hm with hm | hm
        · exact absurd hm hcp
        · exact hm
      have e := List.takeWhile_append_dropWhile (p := Char.isDigit) (l := d :: s)
      rw [← e] at hm
      rcases List.mem_append.mp hm with hm | hm
      · exfalso
        have ht := List.all_takeWhile (p := Char.isDigit) (l := d :: s)
        rw [List.all_eq_true] at ht
        exact digit_usual (ht _ hm) hc rfl
      · exact hm
    · rw [← (Prod.mk.inj (Option.some.inj h)).2]; exact hm
  · rw [← (Prod.mk.inj (Option.some.inj h)).2]; exact hm

/-- A text with another character is refused. -/
theorem parseTime_odd (newer : Bool) {t : List Char} {c : Char} (hc : usual c = false) (hm : c ∈ t) : parseTime newer t = none := by
  cases hp : parseTime newer t with
  | none => rfl
  | some v =>
    exfalso
    unfold parseTime at hp
    simp only [Option.bind_eq_bind, Option.bind_eq_some_iff] at hp
    obtain ⟨⟨y, s1⟩, h1, s2, h2, ⟨mo, s3⟩, h3, _, _, s4, h4, ⟨d, s5⟩, h5, s6, h6, ⟨h, s7⟩, h7, _, _, s8, h8, ⟨mi, s9⟩, h9, _, _, s10, h10,
      ⟨se, s11⟩, h11, _, _, ⟨ns, s12⟩, h12, _, h13, _⟩ := hp
    have m1 := year4_odd h1 hc hm
    have m2 := lit_odd (by decide) h2 hc m1
    have m3 := two_odd h3 hc m2
    have m4 := lit_odd (by decide) h4 hc m3
    have m5 := two_odd h5 hc m4
    have m6 := lit_odd (by decide) h6 hc m5
    have m7 := oneOrTwo_odd h7 hc m6
    have m8 := lit_odd (by decide) h8 hc m7
    have m9 := two_odd h9 hc m8
    have m10 := lit_odd (by decide) h10 hc m9
    have m11 := two_odd h11 hc m10
    have m12 := fraction_odd h12 hc m11
    simp only [guard] at h13
    split at h13
    · next he => rw [he] at m12; cases m12
    · cases h13

/-! ## C126 -/

/-- The text of the time stamp of a played back message in the log (parsed_message.go:106). -/
def stampText (newer : Bool) (t : List Char) : List Byte := Log.receipt 'T' (timestamp newer t)

/-- **C126** (what holds): a time stamp `2006-01-02T15:04:05` of a line, with up to nine digits of a second or without, is the instant
that the message is given, and the log shows it to the millisecond. -/
theorem C126_partial (newer : Bool) {x : Moment} (hx : x.Valid) {t : List Char} (h : x.Written t) :
    timestamp newer t = x.instant ∧ Log.ShowsReceipt 'T' x.instant (stampText newer t) ∧
    x.instant.1.stamp = ⟨x.year, x.month, x.day, x.hour, x.minute, x.second, 0⟩ := by
  have e : timestamp newer t = x.instant := by unfold timestamp; rw [parseTime_written newer hx h]; rfl
  have hs := instant_stamp hx
  refine ⟨e, ?_, hs⟩
  unfold stampText
  rw [e]
  apply Log.receipt_shows
  refine ⟨by rw [hs]; simp, by rw [hs]; simp only; have := hx.year; omega, ?_⟩
  unfold Moment.instant
  simp only
  have := ofDigitChars_lt hx.digits
  have hl := hx.short
  calc Nat.ofDigitChars 10 x.fraction 0 * 10 ^ (9 - x.fraction.length) < 10 ^ x.fraction.length * 10 ^ (9 - x.fraction.length) :=
        Nat.mul_lt_mul_of_pos_right this (by positivity)
    _ = 10 ^ 9 := by rw [← pow_add]; congr 1; omega

/-- Digits of a number, given how many: there is one way. -/
theorem decimal_unique {w n : ℕ} {l l' : List Char} (h : Decimal w n l) (h' : Decimal w n l') : l = l' := by
  obtain ⟨h1, h2, h3⟩ := h
  obtain ⟨g1, g2, g3⟩ := h'
  have key : ∀ (l l' : List Char), l.length = l'.length → (∀ c ∈ l, c.isDigit = true) → (∀ c ∈ l', c.isDigit = true) →
      ∀ a, Nat.ofDigitChars 10 l a = Nat.ofDigitChars 10 l' a → l = l' := by
    intro l
    induction l using List.reverseRecOn with
    | nil => intro l' hl _ _ _ _; exact (List.length_eq_zero_iff.mp hl.symm).symm
    | append_singleton l c ih =>
      intro l' hl hd hd' a he
      rcases List.eq_nil_or_concat l' with rfl | ⟨m, d, rfl⟩
      · simp at hl
      rw [List.concat_eq_append] at *
      unfold Nat.ofDigitChars at he
      rw [List.foldl_append, List.foldl_append] at he
      simp only [List.foldl_cons, List.foldl_nil] at he
      have bound : ∀ c : Char, c.isDigit = true → 48 ≤ c.toNat ∧ c.toNat ≤ 57 := by
        intro c hc
        simp only [Char.isDigit, Bool.and_eq_true, decide_eq_true_eq] at hc
        exact ⟨UInt32.le_iff_toNat_le.mp hc.1, UInt32.le_iff_toNat_le.mp hc.2⟩
      have bc := bound c (hd c (by simp))
      have bd := bound d (hd' d (by simp))
      have e0 : '0'.toNat = 48 := rfl
      rw [e0] at he
      have e1 : c.toNat = d.toNat := by omega
      have e2 := ih m (by simpa using hl) (fun x hx => hd x (by simp [hx])) (fun x hx => hd' x (by simp [hx])) a (by
        unfold Nat.ofDigitChars
        rw [e0]
        omega)
      have e3 : c = d := Char.ext (UInt32.toNat_inj.mp e1)
      rw [e2, e3]
  exact key l l' (by rw [h1, g1]) h2 g2 0 (by rw [h3, g3])

/-- **C126** (with three digits): the log shows the time stamp of the line itself. -/
theorem C126_shown (newer : Bool) {x : Moment} (hx : x.Valid) (h3 : x.fraction.length = 3) {t : List Char} (h : x.Written t) :
    stampText newer t = ascii t := by
  obtain ⟨e, _, hs⟩ := C126_partial newer hx h
  obtain ⟨y, mo, d, ho, mi, se, rfl, w1, w2, w3, w4, w5, w6⟩ := h
  have hy := hx.year
  obtain ⟨-, d2, -, d4⟩ := hx.date
  have hm31 : Signalk.monthDays x.year x.month ≤ 31 := by
    unfold Signalk.monthDays
    split <;> (try split) <;> omega
  have q1 := hx.hour
  have q2 := hx.minute
  have q3 := hx.second
  have p1 := decimal_unique (Json.pad_decimal (by omega) (by omega)) w1
  have p2 := decimal_unique (Json.pad_decimal (by omega) (by omega)) w2
  have p3 := decimal_unique (Json.pad_decimal (by omega) (by omega)) w3
  have p4 := decimal_unique (Json.pad_decimal (by omega) (by omega)) w4
  have p5 := decimal_unique (Json.pad_decimal (by omega) (by omega)) w5
  have p6 := decimal_unique (Json.pad_decimal (by omega) (by omega)) w6
  have hns : x.instant.2 / 10 ^ 6 = Nat.ofDigitChars 10 x.fraction 0 := by
    unfold Moment.instant
    simp only
    rw [h3]
    exact Nat.mul_div_cancel _ (by norm_num)
  have hf := ofDigitChars_lt hx.digits
  rw [h3] at hf
  have p7 := decimal_unique (Json.pad_decimal (w := 3) (by omega) hf) ⟨h3, hx.digits, rfl⟩
  have hne : x.fraction ≠ [] := by
    intro h0
    rw [h0] at h3
    cases h3
  unfold stampText
  rw [e]
  unfold Log.receipt
  rw [hs, hns, p7, if_neg hne]
  refine congrArg ascii ?_
  unfold Log.dateClock Log.yearText
  rw [if_neg (by simp), List.nil_append]
  simp only [Int.natAbs_natCast, Int.toNat_natCast]
  rw [p1, p2, p3, p4, p5, p6]

/-- Three digits. -/
def exampleMoment : Moment := ⟨2015, 7, 4, 12, 34, 56, "789".toList⟩

theorem example_valid : exampleMoment.Valid := by
  refine ⟨?_, ?_, ?_, ?_, ?_, ?_, ?_⟩
  · unfold isDate exampleMoment Signalk.monthDays; simp
  all_goals first | decide | (unfold exampleMoment; simp)

theorem example_written : exampleMoment.Written "2015-07-04T12:34:56.789".toList := by
  refine ⟨"2015".toList, "07".toList, "04".toList, "12".toList, "34".toList, "56".toList, ?_, ?_, ?_, ?_, ?_, ?_, ?_⟩
  · decide
  all_goals (unfold Decimal exampleMoment; decide)

/-- A time stamp that is understood. -/
example (newer : Bool) : stampText newer "2015-07-04T12:34:56.789".toList = ascii "2015-07-04T12:34:56.789".toList :=
  C126_shown newer example_valid (by decide) example_written

/-- **C126** is false of other time stamps: with any character that is not a digit and not one of `-T:.,`, such as the `Z` that
CanBoat writes, the message is given the first instant of the year 1. -/
theorem C126_zone_false (newer : Bool) {t : List Char} {c : Char} (hc : usual c = false) (hm : c ∈ t) :
    stampText newer t = ascii "0001-01-01T00:00:00.000".toList := by
  unfold stampText timestamp
  rw [parseTime_odd newer hc hm]
  decide +kernel

/-- Time stamps as CanBoat writes them. -/
example (newer : Bool) : stampText newer "2015-07-04T12:34:56.789Z".toList = ascii "0001-01-01T00:00:00.000".toList :=
  C126_zone_false newer (c := 'Z') (by decide) (by decide)

/-- **C126** is false of the time stamps of older versions of CanBoat, with a dash between date and time. -/
theorem C126_dash_false (newer : Bool) : timestamp newer "2015-07-04-12:34:56.789".toList = (zeroTime, 0) ∧
    stampText newer "2015-07-04-12:34:56.789".toList = ascii "0001-01-01T00:00:00.000".toList := by
  cases newer <;> decide +kernel

end Argo.Playback
