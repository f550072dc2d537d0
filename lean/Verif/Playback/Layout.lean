import Verif.Playback.Stamp

set_option autoImplicit false

/-! # C126: exactly which time stamps are understood -/

namespace Argo.Playback

open Argo
open Argo.Json (ascii Decimal)
open Argo.Signalk (Time isDate)

/-! ## Specification -/

/-- Nothing, or a point (since Go 1.17 also a comma) and digits: `ns` nanoseconds.  Since Go 1.17 digits after the ninth are
dropped; before, the digits are less than a thousand million, and more than nine of them are nanoseconds. -/
def IsFraction (newer : Bool) (F : List Char) (ns : ℕ) : Prop :=
  (F = [] ∧ ns = 0) ∨ ∃ p ds, F = p :: ds ∧ (p = '.' ∨ newer = true ∧ p = ',') ∧ ds ≠ [] ∧ (∀ c ∈ ds, c.isDigit = true) ∧
    if newer then ns = Nat.ofDigitChars 10 (ds.take 9) 0 * 10 ^ (9 - ds.length)
    else Nat.ofDigitChars 10 ds 0 < 10 ^ 9 ∧ ns = Nat.ofDigitChars 10 ds 0 * 10 ^ (9 - ds.length)

/-- The text is a date and a time of day, which is the instant `v` in UTC with its nanoseconds. -/
def Understood (newer : Bool) (t : List Char) (v : Time × ℕ) : Prop :=
  ∃ (y mo d h mi se ns : ℕ) (Y MO D H MI SE F : List Char),
    t = Y ++ '-' :: (MO ++ '-' :: (D ++ 'T' :: (H ++ ':' :: (MI ++ ':' :: (SE ++ F))))) ∧
    Decimal 4 y Y ∧ Decimal 2 mo MO ∧ Decimal 2 d D ∧ (Decimal 2 h H ∨ Decimal 1 h H) ∧ Decimal 2 mi MI ∧ Decimal 2 se SE ∧
    IsFraction newer F ns ∧ isDate y mo d ∧ h < 24 ∧ mi < 60 ∧ se < 60 ∧
    v = (⟨Signalk.dayNumber y mo d * 86400 + (3600 * h + 60 * mi + se : ℕ), 0⟩, ns)

/-! ## Proofs -/

theorem two_inv {s r : List Char} {n : ℕ} (h : two s = some (n, r)) : ∃ l, s = l ++ r ∧ Decimal 2 n l := by
  match s with
  | [] => cases h
  | [_] => cases h
  | a :: b :: s =>
    simp only [two] at h
    split at h
    · next hd =>
      rw [Bool.and_eq_true] at hd
      obtain ⟨h1, h2⟩ := Prod.mk.inj (Option.some.inj h)
      refine ⟨[a, b], by rw [← h2]; rfl, rfl, ?_, by rw [← h1, value10_eq]⟩
      simp [hd.1, hd.2]
    · cases h

theorem year4_inv {s r : List Char} {n : ℕ} (h : year4 s = some (n, r)) : ∃ l, s = l ++ r ∧ Decimal 4 n l := by
  match s with
  | [] => cases h
  | [_] => cases h
  | [_, _] => cases h
  | [_, _, _] => cases h
  | a :: b :: e :: d :: s =>
    simp only [year4] at h
    split at h
    · next hd =>
      obtain ⟨h1, h2⟩ := Prod.mk.inj (Option.some.inj h)
      refine ⟨[a, b, e, d], by rw [← h2]; rfl, rfl, List.all_eq_true.mp hd, by rw [← h1, value10_eq]⟩
    · cases h

theorem oneOrTwo_inv {s r : List Char} {n : ℕ} (h : oneOrTwo s = some (n, r)) : ∃ l, s = l ++ r ∧ (Decimal 2 n l ∨ Decimal 1 n l) := by
  match s with
  | [] => cases h
  | [a] =>
    simp only [oneOrTwo] at h
    split at h
    · next hd =>
      obtain ⟨h1, h2⟩ := Prod.mk.inj (Option.some.inj h)
      exact ⟨[a], by rw [← h2]; rfl, Or.inr ⟨rfl, by simpa using hd, by rw [← h1, value10_eq]⟩⟩
    · cases h
  | a :: b :: s =>
    simp only [oneOrTwo] at h
    split at h
    · next hd =>
      split at h
      · next hd2 =>
        obtain ⟨h1, h2⟩ := Prod.mk.inj (Option.some.inj h)
        exact ⟨[a, b], by rw [← h2]; rfl, Or.inl ⟨rfl, by simp [hd, hd2], by rw [← h1, value10_eq]⟩⟩
      · obtain ⟨h1, h2⟩ := Prod.mk.inj (Option.some.inj h)
        exact ⟨[a], by rw [← h2]; rfl, Or.inr ⟨rfl, by simpa using hd, by rw [← h1, value10_eq]⟩⟩
    · cases h

theorem decimal1_oneOrTwo {n : ℕ} {l : List Char} (h : Decimal 1 n l) (r : List Char) : oneOrTwo (l ++ ':' :: r) = some (n, ':' :: r) := by
  obtain ⟨h1, h2, h3⟩ := h
  match l, h1 with
  | [a], _ =>
    simp only [List.cons_append, List.nil_append, oneOrTwo]
    rw [if_pos (h2 a (by simp)), if_neg (by decide), value10_eq, h3]

theorem lit_inv {c : Char} {s r : List Char} (h : lit c s = some r) : s = c :: r := by
  cases s with
  | nil => cases h
  | cons a s =>
    simp only [lit] at h
    split at h
    · next he => rw [he, Option.some.inj h]
    · cases h

theorem nanoseconds_iff (newer : Bool) (ds : List Char) (ns : ℕ) : nanoseconds newer ds = some ns ↔
    if newer then ns = Nat.ofDigitChars 10 (ds.take 9) 0 * 10 ^ (9 - ds.length)
    else Nat.ofDigitChars 10 ds 0 < 10 ^ 9 ∧ ns = Nat.ofDigitChars 10 ds 0 * 10 ^ (9 - ds.length) := by
  unfold nanoseconds
  rw [value10_eq, value10_eq]
  cases newer with
  | true => simp only [if_true, Option.some.injEq]; exact eq_comm
  | false =>
    simp only [Bool.false_eq_true, if_false]
    split
    · next h => simp only [Option.some.injEq, h, true_and]; exact eq_comm
    · next h => simp [h]

theorem fraction_iff (newer : Bool) (s : List Char) (ns : ℕ) : fraction newer s = some (ns, []) ↔ IsFraction newer s ns := by
  constructor
  · intro h
    unfold fraction at h
    split at h
    · next p d r =>
      split at h
      · next hp =>
        rw [Option.map_eq_some_iff] at h
        obtain ⟨k, hk, h⟩ := h
        obtain ⟨h1, h2⟩ := Prod.mk.inj h
        have e := List.takeWhile_append_dropWhile (p := Char.isDigit) (l := d :: r)
        rw [h2, List.append_nil] at e
        rw [e] at hk
        have ha : (d :: r).all Char.isDigit = true := by rw [← e]; exact List.all_takeWhile
        refine Or.inr ⟨p, d :: r, rfl, hp.1, by simp, List.all_eq_true.mp ha, ?_⟩
        rw [← h1]
        exact (nanoseconds_iff newer _ k).mp hk
      · obtain ⟨h1, h2⟩ := Prod.mk.inj (Option.some.inj h)
        cases h2
    · obtain ⟨h1, h2⟩ := Prod.mk.inj (Option.some.inj h)
      exact Or.inl ⟨h2, h1.symm⟩
  · rintro (⟨rfl, rfl⟩ | ⟨p, ds, rfl, hp, hne, hd, hv⟩)
    · rfl
    · cases ds with
      | nil => exact absurd rfl hne
      | cons d r =>
        unfold fraction
        simp only
        rw [if_pos ⟨hp, hd d (by simp)⟩, (takeWhile_all hd).1, (takeWhile_all hd).2, (nanoseconds_iff newer _ ns).mpr hv]
        rfl

theorem guard_some {p : Prop} [Decidable p] {u : Unit} : (guard p : Option Unit) = some u ↔ p := by
  unfold guard
  split
  · next h => exact ⟨fun _ => h, fun _ => rfl⟩
  · next h => exact ⟨fun e => (nomatch e), fun e => absurd e h⟩

/-- **C126** (exactly which time stamps are understood, and as what). -/
theorem C126_exact (newer : Bool) (t : List Char) (v : Time × ℕ) : parseTime newer t = some v ↔ Understood newer t v := by
  have date : ∀ (y mo d s : ℕ), isDate y mo d → Time.date y mo d s 0 = ⟨Signalk.dayNumber y mo d * 86400 + (s : ℕ), 0⟩ := by
    rintro y mo d s ⟨d1, d2, d3, d4⟩
    unfold Time.date
    have e1 : ((mo : ℤ) - 1) / 12 = 0 := by omega
    have e2 : ((mo : ℤ) - 1) % 12 + 1 = mo := by omega
    rw [e1, e2, add_zero]
    have e3 : Signalk.dayNumber y mo 1 + ((d : ℤ) - 1) = Signalk.dayNumber y mo d := by
      unfold Signalk.dayNumber
      simp only
      omega
    rw [e3, sub_zero]
  constructor
  · intro hp
    unfold parseTime at hp
    simp only [Option.bind_eq_bind, Option.bind_eq_some_iff] at hp
    obtain ⟨⟨y, s1⟩, h1, s2, h2, ⟨mo, s3⟩, h3, _, g1, s4, h4, ⟨d, s5⟩, h5, s6, h6, ⟨h, s7⟩, h7, _, g2, s8, h8, ⟨mi, s9⟩, h9, _, g3, s10, h10,
      ⟨se, s11⟩, h11, _, g4, ⟨ns, s12⟩, h12, _, g5, _, g6, hv⟩ := hp
    rw [guard_some] at g1 g2 g3 g4 g5 g6
    simp only at h2 h3 h4 h5 h6 h7 h8 h9 h10 h11 h12 g1 g2 g3 g4 g5 g6 hv
    rw [g5] at h12
    rw [daysIn_eq] at g6
    obtain ⟨Y, rfl, a1⟩ := year4_inv h1
    obtain rfl := lit_inv h2
    obtain ⟨MO, rfl, a2⟩ := two_inv h3
    obtain rfl := lit_inv h4
    obtain ⟨D, rfl, a3⟩ := two_inv h5
    obtain rfl := lit_inv h6
    obtain ⟨H, rfl, a4⟩ := oneOrTwo_inv h7
    obtain rfl := lit_inv h8
    obtain ⟨MI, rfl, a5⟩ := two_inv h9
    obtain rfl := lit_inv h10
    obtain ⟨SE, rfl, a6⟩ := two_inv h11
    have hd : isDate y mo d := by unfold isDate; omega
    refine ⟨y, mo, d, h, mi, se, ns, Y, MO, D, H, MI, SE, s11, rfl, a1, a2, a3, a4, a5, a6, (fraction_iff newer s11 ns).mp h12, hd, g2, g3, g4, ?_⟩
    rw [← Option.some.inj hv, date _ _ _ _ hd]
  · rintro ⟨y, mo, d, h, mi, se, ns, Y, MO, D, H, MI, SE, F, rfl, a1, a2, a3, a4, a5, a6, hf, hd, l1, l2, l3, rfl⟩
    have a4 : ∀ r, oneOrTwo (H ++ ':' :: r) = some (h, ':' :: r) := by
      intro r
      rcases a4 with a4 | a4
      · exact decimal_oneOrTwo a4 _
      · exact decimal1_oneOrTwo a4 _
    have g : ∀ {p : Prop} [Decidable p], p → (guard p : Option Unit) = some () := fun h => guard_some.mpr h
    have hd' := hd
    obtain ⟨d1, d2, d3, d4⟩ := hd'
    unfold parseTime
    simp only [decimal_year4 a1, lit, if_true, Option.bind_eq_bind, Option.bind_some, decimal_two a2, decimal_two a3, a4, decimal_two a5,
      decimal_two a6, (fraction_iff newer F ns).mpr hf]
    rw [g (by omega), g l1, g l2, g l3]
    simp only [Option.bind_some]
    rw [g trivial, g (by rw [daysIn_eq]; omega)]
    simp only [Option.bind_some, Option.some.injEq]
    rw [date _ _ _ _ hd]

/-- **C126** (exactly): a time stamp that is not such a text gives the first instant of the year 1. -/
theorem C126_refused (newer : Bool) {t : List Char} (h : ∀ v, ¬ Understood newer t v) :
    timestamp newer t = (zeroTime, 0) ∧ stampText newer t = ascii "0001-01-01T00:00:00.000".toList := by
  have hp : parseTime newer t = none := by
    cases hp : parseTime newer t with
    | none => rfl
    | some v => exact absurd ((C126_exact newer t v).mp hp) (h v)
  unfold stampText timestamp
  rw [hp]
  exact ⟨rfl, by decide +kernel⟩

/-- A comma is understood since Go 1.17, and so is an hour with one digit. -/
example : Understood true "2015-07-04T9:34:56,78".toList (⟨1436002496, 0⟩, 780000000) :=
  (C126_exact _ _ _).mp (by decide +kernel)

example : ∀ v, ¬ Understood false "2015-07-04T9:34:56,78".toList v := fun v h => by
  have h1 := (C126_exact _ _ _).mpr h
  have h2 : parseTime false "2015-07-04T9:34:56,78".toList = none := by decide +kernel
  rw [h2] at h1
  cases h1

/-- There is no 29 February 2015. -/
example (newer : Bool) : ∀ v, ¬ Understood newer "2015-02-29T12:34:56".toList v := fun v h => by
  have h1 := (C126_exact _ _ _).mpr h
  have h2 : parseTime newer "2015-02-29T12:34:56".toList = none := by cases newer <;> decide +kernel
  rw [h2] at h1
  cases h1

/-! ## The time stamp of a line -/

/-- parsed_message.go:61-71: the time of the message made of a line. -/
def lineTime (newer : Bool) (limit : Option ℕ) (line : List Byte) : Time × ℕ := timestamp newer (unmarshal limit line).timestamp

/-- `t` is the text of the last member `timestamp` that is a string, empty if there is none. -/
def LastText (ms : List (List Char × Json.Json)) (t : List Char) : Prop :=
  (∃ pre m post, ms = pre ++ m :: post ∧ Named "timestamp" m ∧ m.2 = .str t ∧ ∀ x ∈ post, Named "timestamp" x → ∀ u, x.2 ≠ .str u) ∨
  ((∀ m ∈ ms, Named "timestamp" m → ∀ u, m.2 ≠ .str u) ∧ t = [])

theorem store_timestamp (t : Target) (m : List Char × Json.Json) :
    (store t m).timestamp = if Named "timestamp" m then setString t.timestamp m.2 else t.timestamp := by
  have hk := keyOf_iff m.1 "timestamp" .timestamp (by simp [keys])
  by_cases h : Named "timestamp" m
  · rw [if_pos h]
    unfold store
    rw [hk.mpr h]
  · rw [if_neg h]
    have : keyOf m.1 ≠ some .timestamp := fun e => h (hk.mp e)
    unfold store
    split <;> first | rfl | (next he => exact absurd he this)

theorem lastText (ms : List (List Char × Json.Json)) : LastText ms (ms.foldl store Target.zero).timestamp := by
  induction ms using List.reverseRecOn with
  | nil => exact Or.inr ⟨by simp, rfl⟩
  | append_singleton ms m ih =>
    rw [List.foldl_append, List.foldl_cons, List.foldl_nil, store_timestamp]
    by_cases hn : Named "timestamp" m
    · rw [if_pos hn]
      by_cases hs : ∃ u, m.2 = .str u
      · obtain ⟨u, hu⟩ := hs
        refine Or.inl ⟨ms, m, [], rfl, hn, ?_, by simp⟩
        rw [hu]; rfl
      · have e : ∀ old, setString old m.2 = old := by
          intro old
          unfold setString
          split
          · next u hu => exact absurd ⟨u, hu⟩ hs
          · rfl
        rw [e]
        rcases ih with ⟨pre, x, post, h1, h2, h3, h4⟩ | ⟨h1, h2⟩
        · refine Or.inl ⟨pre, x, post ++ [m], by rw [h1]; simp, h2, h3, ?_⟩
          intro y hy hny
          rcases List.mem_append.mp hy with hy | hy
          · exact h4 y hy hny
          · rw [List.mem_singleton.mp hy]; exact fun u hu => hs ⟨u, hu⟩
        · refine Or.inr ⟨?_, h2⟩
          intro y hy hny
          rcases List.mem_append.mp hy with hy | hy
          · exact h1 y hy hny
          · rw [List.mem_singleton.mp hy]; exact fun u hu => hs ⟨u, hu⟩
    · rw [if_neg hn]
      rcases ih with ⟨pre, x, post, h1, h2, h3, h4⟩ | ⟨h1, h2⟩
      · refine Or.inl ⟨pre, x, post ++ [m], by rw [h1]; simp, h2, h3, ?_⟩
        intro y hy hny
        rcases List.mem_append.mp hy with hy | hy
        · exact h4 y hy hny
        · rw [List.mem_singleton.mp hy] at hny; exact absurd hny hn
      · refine Or.inr ⟨?_, h2⟩
        intro y hy hny
        rcases List.mem_append.mp hy with hy | hy
        · exact h1 y hy hny
        · rw [List.mem_singleton.mp hy] at hny; exact absurd hny hn

/-- **C126** (for any line): the message's time is what the text of the last member `timestamp` is understood as, the first instant
of the year 1 if it is not understood, if there is no such member, or if the line is not an object. -/
theorem C126_line (newer : Bool) (limit : Option ℕ) (line : List Byte) :
    (∃ ms t, accepted limit line = some (.obj ms) ∧ LastText ms t ∧
      (Understood newer t (lineTime newer limit line) ∨ (∀ v, ¬ Understood newer t v) ∧ lineTime newer limit line = (zeroTime, 0))) ∨
    ((∀ ms, accepted limit line ≠ some (.obj ms)) ∧ lineTime newer limit line = (zeroTime, 0)) := by
  have tot : ∀ t, Understood newer t (timestamp newer t) ∨ (∀ v, ¬ Understood newer t v) ∧ timestamp newer t = (zeroTime, 0) := by
    intro t
    by_cases h : ∃ v, Understood newer t v
    · obtain ⟨v, hv⟩ := h
      left
      have := (C126_exact newer t v).mpr hv
      unfold timestamp
      rw [this]
      exact hv
    · right
      exact ⟨fun v hv => h ⟨v, hv⟩, (C126_refused newer fun v hv => h ⟨v, hv⟩).1⟩
  have zero : timestamp newer Target.zero.timestamp = (zeroTime, 0) := by
    unfold Target.zero
    cases newer <;> decide +kernel
  unfold lineTime unmarshal
  cases ha : accepted limit line with
  | none => exact Or.inr ⟨by simp, zero⟩
  | some v =>
    cases v with
    | obj ms => exact Or.inl ⟨ms, _, rfl, lastText ms, tot _⟩
    | _ => exact Or.inr ⟨by simp, zero⟩

/-- A line with a time stamp that is understood. -/
example (newer : Bool) : lineTime newer (some 10000) (Signalk.bs "{\"timestamp\":\"2015-07-04T12:34:56.789\",\"pgn\":127245}") =
    (⟨1436013296, 0⟩, 789000000) := by
  cases newer <;> decide +kernel

end Argo.Playback
