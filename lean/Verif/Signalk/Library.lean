import Verif.Signalk.Model
import Mathlib.Data.Nat.Digits.Defs
import Mathlib.Tactic.Ring

set_option autoImplicit false

/-!
# What the library functions used by Delta do

Specifications, independent of the model, of `strconv.ParseInt`, `strings.Replace` with a count of 1, and
of looking up a field of a fieldset.
-/

namespace Argo.Signalk

open Argo

/-! ## Numbers -/

/-- `s` is a non-empty sequence of decimal digits that denotes `n`. -/
structure Decimal (s : Str) (n : Nat) : Prop where
  nonempty : s ≠ []
  digit : ∀ c ∈ s, 48 ≤ c.toNat ∧ c.toNat ≤ 57
  value : n = Nat.ofDigits 10 (s.reverse.map (fun c => c.toNat - 48))

/-- `s` denotes the integer `v`: decimal digits, after an optional sign `+` (43) or `-` (45). -/
inductive Number : Str → Int → Prop
  | plain (s : Str) (n : Nat) : Decimal s n → Number s n
  | plus (s : Str) (n : Nat) : Decimal s n → Number (43 :: s) n
  | minus (s : Str) (n : Nat) : Decimal s n → Number (45 :: s) (-n)

theorem digit_iff (c : Byte) (d : Nat) :
    digit c = some d ↔ (48 ≤ c.toNat ∧ c.toNat ≤ 57) ∧ d = c.toNat - 48 := by
  unfold digit
  simp only [UInt8.le_iff_toNat_le]
  split
  · rename_i h
    simp only [Option.some.injEq]
    exact ⟨fun e => ⟨h, e.symm⟩, fun e => e.2.symm⟩
  · rename_i h
    simp only [reduceCtorEq, false_iff]
    exact fun e => h e.1

/-- The value of digits read after `acc`. -/
def horner (acc : Nat) (s : Str) : Nat := s.foldl (fun a c => a * 10 + (c.toNat - 48)) acc

theorem horner_eq (acc : Nat) (s : Str) :
    horner acc s = acc * 10 ^ s.length + Nat.ofDigits 10 (s.reverse.map (fun c => c.toNat - 48)) := by
  induction s generalizing acc with
  | nil => simp [horner]
  | cons c cs ih =>
    have : horner acc (c :: cs) = horner (acc * 10 + (c.toNat - 48)) cs := rfl
    rw [this, ih, List.reverse_cons, List.map_append, Nat.ofDigits_append]
    simp only [List.length_map, List.length_reverse, List.map_cons, List.map_nil, Nat.ofDigits_singleton,
      List.length_cons]
    ring

theorem horner_le (acc : Nat) (s : Str) : acc ≤ horner acc s := by
  rw [horner_eq]
  have : 1 ≤ 10 ^ s.length := Nat.one_le_pow _ _ (by omega)
  have := Nat.mul_le_mul_left acc this
  omega

theorem digits_ok (bits : Nat) (s : Str) (acc n : Nat) (ha : acc < 2 ^ bits) :
    digits bits s acc = .ok n ↔ (∀ c ∈ s, 48 ≤ c.toNat ∧ c.toNat ≤ 57) ∧ n = horner acc s ∧ n < 2 ^ bits := by
  induction s generalizing acc with
  | nil =>
    simp only [digits, Digits.ok.injEq, horner, List.foldl_nil]
    constructor
    · rintro rfl; exact ⟨by simp, rfl, ha⟩
    · rintro ⟨_, rfl, _⟩; rfl
  | cons c cs ih =>
    have hh : horner acc (c :: cs) = horner (acc * 10 + (c.toNat - 48)) cs := rfl
    rw [digits, hh]
    cases hd : digit c with
    | none =>
      simp only [reduceCtorEq, List.mem_cons, forall_eq_or_imp, false_iff]
      rintro ⟨⟨h, _⟩, _⟩
      have := (digit_iff c _).2 ⟨h, rfl⟩
      rw [hd] at this; cases this
    | some d =>
      obtain ⟨hc, rfl⟩ := (digit_iff c d).1 hd
      simp only [List.mem_cons, forall_eq_or_imp]
      split
      · rename_i hlt
        rw [ih _ hlt]
        exact ⟨fun ⟨a, b⟩ => ⟨⟨hc, a⟩, b⟩, fun ⟨a, b⟩ => ⟨a.2, b⟩⟩
      · rename_i hge
        simp only [reduceCtorEq, false_iff]
        rintro ⟨_, h1, h2⟩
        have := horner_le (acc * 10 + (c.toNat - 48)) cs
        omega

theorem digits_range (bits : Nat) (s : Str) (acc : Nat) (ha : acc < 2 ^ bits) :
    digits bits s acc = .range ↔
      ∃ p q, s = p ++ q ∧ (∀ c ∈ p, 48 ≤ c.toNat ∧ c.toNat ≤ 57) ∧ 2 ^ bits ≤ horner acc p := by
  induction s generalizing acc with
  | nil =>
    simp only [digits, reduceCtorEq, false_iff]
    rintro ⟨p, q, h, _, h2⟩
    obtain ⟨rfl, rfl⟩ := List.append_eq_nil_iff.1 h.symm
    simp only [horner, List.foldl_nil] at h2
    omega
  | cons c cs ih =>
    rw [digits]
    cases hd : digit c with
    | none =>
      simp only [reduceCtorEq, false_iff]
      rintro ⟨p, q, h, h1, h2⟩
      cases p with
      | nil => simp only [horner, List.foldl_nil] at h2; omega
      | cons e p =>
        simp only [List.cons_append, List.cons.injEq] at h
        obtain ⟨rfl, _⟩ := h
        have := (digit_iff c _).2 ⟨h1 c (by simp), rfl⟩
        rw [hd] at this; cases this
    | some d =>
      obtain ⟨hc, rfl⟩ := (digit_iff c d).1 hd
      simp only
      split
      · rename_i hlt
        rw [ih _ hlt]
        constructor
        · rintro ⟨p, q, rfl, h1, h2⟩
          exact ⟨c :: p, q, rfl, by simpa using ⟨hc, h1⟩, h2⟩
        · rintro ⟨p, q, h, h1, h2⟩
          cases p with
          | nil => simp only [horner, List.foldl_nil] at h2; omega
          | cons e p =>
            simp only [List.cons_append, List.cons.injEq] at h
            obtain ⟨rfl, rfl⟩ := h
            exact ⟨p, q, rfl, fun x hx => h1 x (by simp [hx]), h2⟩
      · rename_i hge
        simp only [true_iff]
        refine ⟨[c], cs, rfl, by simpa using hc, ?_⟩
        simp only [horner, List.foldl_cons, List.foldl_nil]
        omega

theorem decimal_iff (s : Str) (n : Nat) :
    Decimal s n ↔ s ≠ [] ∧ (∀ c ∈ s, 48 ≤ c.toNat ∧ c.toNat ≤ 57) ∧ n = horner 0 s := by
  have e := horner_eq 0 s
  simp only [Nat.zero_mul, Nat.zero_add] at e
  rw [e]
  exact ⟨fun ⟨a, b, c⟩ => ⟨a, b, c⟩, fun ⟨a, b, c⟩ => ⟨a, b, c⟩⟩

/-- The sign and what follows. -/
theorem sign_cases (s : Str) :
    (∃ r, s = 43 :: r) ∨ (∃ r, s = 45 :: r) ∨ (s.head? ≠ some 43 ∧ s.head? ≠ some 45) := by
  cases s with
  | nil => simp
  | cons c cs =>
    by_cases h : c = 43
    · exact Or.inl ⟨cs, by rw [h]⟩
    · by_cases h' : c = 45
      · exact Or.inr (Or.inl ⟨cs, by rw [h']⟩)
      · exact Or.inr (Or.inr ⟨by simpa using h, by simpa using h'⟩)

theorem decimal_head {s : Str} {n : Nat} (h : Decimal s n) : s.head? ≠ some 43 ∧ s.head? ≠ some 45 := by
  cases s with
  | nil => simp
  | cons c cs =>
    have := h.digit c (by simp)
    refine ⟨?_, ?_⟩ <;> (simp only [List.head?_cons, ne_eq, Option.some.injEq]; rintro rfl; revert this; decide)

theorem number_plus {r : Str} {v : Int} : Number (43 :: r) v ↔ ∃ n : Nat, Decimal r n ∧ v = n := by
  constructor
  · intro h
    cases h with
    | plain _ n h => exact absurd rfl (decimal_head h).1
    | plus _ n h => exact ⟨n, h, rfl⟩
  · rintro ⟨n, h, rfl⟩; exact .plus _ _ h

theorem number_minus {r : Str} {v : Int} : Number (45 :: r) v ↔ ∃ n : Nat, Decimal r n ∧ v = -n := by
  constructor
  · intro h
    cases h with
    | plain _ n h => exact absurd rfl (decimal_head h).2
    | minus _ n h => exact ⟨n, h, rfl⟩
  · rintro ⟨n, h, rfl⟩; exact .minus _ _ h

theorem number_plain {s : Str} (h1 : s.head? ≠ some 43) (h2 : s.head? ≠ some 45) {v : Int} :
    Number s v ↔ ∃ n : Nat, Decimal s n ∧ v = n := by
  constructor
  · intro h
    cases h with
    | plain _ n h => exact ⟨n, h, rfl⟩
    | plus _ n h => exact absurd rfl h1
    | minus _ n h => exact absurd rfl h2
  · rintro ⟨n, h, rfl⟩; exact .plain _ _ h

/-- The unsigned part: what `digits` gives, in terms of the specification. -/
theorem digits_cases (bits : Nat) (r : Str) (hr : r ≠ []) :
    (∃ n, digits bits r 0 = .ok n ∧ Decimal r n ∧ n < 2 ^ bits) ∨
    (digits bits r 0 = .range ∧ (∃ p q n, r = p ++ q ∧ Decimal p n ∧ 2 ^ bits ≤ n) ∧
      ∀ n, Decimal r n → 2 ^ bits ≤ n) ∨
    (digits bits r 0 = .syntax ∧ ∀ n, ¬ Decimal r n) := by
  have h0 : 0 < 2 ^ bits := Nat.two_pow_pos bits
  cases h : digits bits r 0 with
  | ok n =>
    obtain ⟨h1, h2, h3⟩ := (digits_ok bits r 0 n h0).1 h
    exact Or.inl ⟨n, rfl, (decimal_iff r n).2 ⟨hr, h1, h2⟩, h3⟩
  | range =>
    obtain ⟨p, q, h1, h2, h3⟩ := (digits_range bits r 0 h0).1 h
    have hp : p ≠ [] := by rintro rfl; simp [horner] at h3
    refine Or.inr (Or.inl ⟨rfl, ⟨p, q, _, h1, (decimal_iff p _).2 ⟨hp, h2, rfl⟩, h3⟩, ?_⟩)
    intro n hn
    by_contra hlt
    obtain ⟨_, g1, g2⟩ := (decimal_iff r n).1 hn
    have := (digits_ok bits r 0 n h0).2 ⟨g1, g2, by omega⟩
    rw [h] at this; cases this
  | «syntax» =>
    refine Or.inr (Or.inr ⟨rfl, fun n hn => ?_⟩)
    obtain ⟨_, g1, g2⟩ := (decimal_iff r n).1 hn
    by_cases hlt : n < 2 ^ bits
    · have := (digits_ok bits r 0 n h0).2 ⟨g1, g2, hlt⟩
      rw [h] at this; cases this
    · have := (digits_range bits r 0 h0).2 ⟨r, [], by simp, g1, by omega⟩
      rw [h] at this; cases this

theorem decimal_unique {s : Str} {n m : Nat} (h : Decimal s n) (h' : Decimal s m) : n = m := by
  rw [h.value, h'.value]

theorem decimal_nil (n : Nat) : ¬ Decimal [] n := fun h => h.nonempty rfl

theorem parse_plus (r : Str) (bits : Nat) : parseInt (43 :: r) bits =
    if r = [] then (0, false) else match digits bits r 0 with
      | .syntax => (0, false)
      | .range => ((2 ^ (bits - 1) : Int) - 1, false)
      | .ok n => if n < 2 ^ (bits - 1) then ((n : Int), true) else ((2 ^ (bits - 1) : Int) - 1, false) := by
  unfold parseInt
  by_cases hr : r = []
  · simp [hr]
  · cases h : digits bits r 0 <;> simp [hr, h, show ((43 : UInt8) == 45) = false by decide]

theorem parse_minus (r : Str) (bits : Nat) : parseInt (45 :: r) bits =
    if r = [] then (0, false) else match digits bits r 0 with
      | .syntax => (0, false)
      | .range => (-(2 ^ (bits - 1) : Int), false)
      | .ok n => if n ≤ 2 ^ (bits - 1) then (-(n : Int), true) else (-(2 ^ (bits - 1) : Int), false) := by
  unfold parseInt
  by_cases hr : r = []
  · simp [hr]
  · cases h : digits bits r 0 <;> simp [hr, h]

theorem parse_plain {s : Str} (h1 : s.head? ≠ some 43) (h2 : s.head? ≠ some 45) (bits : Nat) : parseInt s bits =
    if s = [] then (0, false) else match digits bits s 0 with
      | .syntax => (0, false)
      | .range => ((2 ^ (bits - 1) : Int) - 1, false)
      | .ok n => if n < 2 ^ (bits - 1) then ((n : Int), true) else ((2 ^ (bits - 1) : Int) - 1, false) := by
  unfold parseInt
  have e : (s.head? == some 45) = false := by simpa using h2
  by_cases hr : s = []
  · simp [hr]
  · cases h : digits bits s 0 <;> simp [hr, h, e, h1, h2]

/-- All that is needed about the unsigned case. -/
theorem parse_pos {s r : Str} {bits : Nat} (hb : 0 < bits)
    (hN : ∀ v, Number s v ↔ ∃ n : Nat, Decimal r n ∧ v = n)
    (hp : parseInt s bits = if r = [] then (0, false) else match digits bits r 0 with
      | .syntax => (0, false)
      | .range => ((2 ^ (bits - 1) : Int) - 1, false)
      | .ok n => if n < 2 ^ (bits - 1) then ((n : Int), true) else ((2 ^ (bits - 1) : Int) - 1, false)) :
    (∃ v, Number s v ∧ v < 2 ^ (bits - 1) ∧ 0 ≤ v ∧ parseInt s bits = (v, true)) ∨
    ((∀ v, Number s v → (2 ^ (bits - 1) : Int) ≤ v) ∧
      parseInt s bits = ((2 ^ (bits - 1) : Int) - 1, false) ∧
      ((∃ v, Number s v) ∨ ∃ p q n, r = p ++ q ∧ Decimal p n ∧ 2 ^ bits ≤ n)) ∨
    ((∀ v, ¬ Number s v) ∧ parseInt s bits = (0, false)) := by
  have hpow : 2 ^ bits = 2 * 2 ^ (bits - 1) := by
    obtain ⟨k, rfl⟩ : ∃ k, bits = k + 1 := ⟨bits - 1, by omega⟩
    rw [Nat.pow_succ]; simp only [Nat.add_sub_cancel]; omega
  have hcast : ((2 ^ (bits - 1) : Nat) : Int) = (2 ^ (bits - 1) : Int) := by push_cast; rfl
  by_cases hr : r = []
  · subst hr
    rw [if_pos rfl] at hp
    refine Or.inr (Or.inr ⟨fun v hv => ?_, hp⟩)
    obtain ⟨n, hn, _⟩ := (hN v).1 hv
    exact decimal_nil n hn
  · rw [if_neg hr] at hp
    rcases digits_cases bits r hr with ⟨n, h1, h2, h3⟩ | ⟨h1, h2, h3⟩ | ⟨h1, h2⟩
    · rw [h1] at hp
      simp only at hp
      split at hp
      · rename_i hlt
        refine Or.inl ⟨n, (hN _).2 ⟨n, h2, rfl⟩, ?_, by omega, hp⟩
        rw [← hcast]; exact_mod_cast hlt
      · rename_i hge
        refine Or.inr (Or.inl ⟨fun v hv => ?_, hp, Or.inl ⟨n, (hN _).2 ⟨n, h2, rfl⟩⟩⟩)
        obtain ⟨m, hm, rfl⟩ := (hN v).1 hv
        rw [decimal_unique hm h2, ← hcast]
        omega
    · rw [h1] at hp
      refine Or.inr (Or.inl ⟨fun v hv => ?_, hp, Or.inr h2⟩)
      obtain ⟨m, hm, rfl⟩ := (hN v).1 hv
      have := h3 m hm
      rw [← hcast]; omega
    · rw [h1] at hp
      refine Or.inr (Or.inr ⟨fun v hv => ?_, hp⟩)
      obtain ⟨m, hm, rfl⟩ := (hN v).1 hv
      exact h2 m hm

/-- The negative case. -/
theorem parse_neg {r : Str} {bits : Nat} (hb : 0 < bits) :
    (∃ v, Number (45 :: r) v ∧ v ≤ 0 ∧ -(2 ^ (bits - 1) : Int) ≤ v ∧ parseInt (45 :: r) bits = (v, true)) ∨
    ((∀ v, Number (45 :: r) v → v < -(2 ^ (bits - 1) : Int)) ∧
      parseInt (45 :: r) bits = (-(2 ^ (bits - 1) : Int), false) ∧
      ((∃ v, Number (45 :: r) v) ∨ ∃ p q n, r = p ++ q ∧ Decimal p n ∧ 2 ^ bits ≤ n)) ∨
    ((∀ v, ¬ Number (45 :: r) v) ∧ parseInt (45 :: r) bits = (0, false)) := by
  have hp := parse_minus r bits
  have hN := @number_minus r
  have hpow : 2 ^ bits = 2 * 2 ^ (bits - 1) := by
    obtain ⟨k, rfl⟩ : ∃ k, bits = k + 1 := ⟨bits - 1, by omega⟩
    rw [Nat.pow_succ]; simp only [Nat.add_sub_cancel]; omega
  have h0 : 0 < 2 ^ (bits - 1) := Nat.two_pow_pos _
  have hcast : ((2 ^ (bits - 1) : Nat) : Int) = (2 ^ (bits - 1) : Int) := by push_cast; rfl
  by_cases hr : r = []
  · subst hr
    rw [if_pos rfl] at hp
    refine Or.inr (Or.inr ⟨fun v hv => ?_, hp⟩)
    obtain ⟨n, hn, _⟩ := hN.1 hv
    exact decimal_nil n hn
  · rw [if_neg hr] at hp
    rcases digits_cases bits r hr with ⟨n, h1, h2, h3⟩ | ⟨h1, h2, h3⟩ | ⟨h1, h2⟩
    · rw [h1] at hp
      simp only at hp
      split at hp
      · rename_i hle
        refine Or.inl ⟨-n, hN.2 ⟨n, h2, rfl⟩, by omega, ?_, hp⟩
        rw [← hcast]; omega
      · rename_i hgt
        refine Or.inr (Or.inl ⟨fun v hv => ?_, hp, Or.inl ⟨-n, hN.2 ⟨n, h2, rfl⟩⟩⟩)
        obtain ⟨m, hm, rfl⟩ := hN.1 hv
        rw [decimal_unique hm h2, ← hcast]
        omega
    · rw [h1] at hp
      refine Or.inr (Or.inl ⟨fun v hv => ?_, hp, Or.inr h2⟩)
      obtain ⟨m, hm, rfl⟩ := hN.1 hv
      have := h3 m hm
      rw [← hcast]; omega
    · rw [h1] at hp
      refine Or.inr (Or.inr ⟨fun v hv => ?_, hp⟩)
      obtain ⟨m, hm, rfl⟩ := hN.1 hv
      exact h2 m hm

theorem number_unique {s : Str} {v w : Int} (h : Number s v) (h' : Number s w) : v = w := by
  rcases sign_cases s with ⟨r, rfl⟩ | ⟨r, rfl⟩ | ⟨h1, h2⟩
  · obtain ⟨n, a, rfl⟩ := number_plus.1 h; obtain ⟨m, b, rfl⟩ := number_plus.1 h'
    rw [decimal_unique a b]
  · obtain ⟨n, a, rfl⟩ := number_minus.1 h; obtain ⟨m, b, rfl⟩ := number_minus.1 h'
    rw [decimal_unique a b]
  · obtain ⟨n, a, rfl⟩ := (number_plain h1 h2).1 h; obtain ⟨m, b, rfl⟩ := (number_plain h1 h2).1 h'
    rw [decimal_unique a b]

/-- C55 (field numbers): a text is accepted as a field number exactly if it denotes an integer in the range
of the type, and then it is that integer. -/
theorem C55_number {bits : Nat} (hb : 0 < bits) (s : Str) (v : Int) :
    parseInt s bits = (v, true) ↔ Number s v ∧ -(2 ^ (bits - 1) : Int) ≤ v ∧ v < (2 ^ (bits - 1) : Int) := by
  have hpos : (0 : Int) < 2 ^ (bits - 1) := Int.pow_pos (by omega)
  have key : ∀ {A : Prop}, (∃ w, Number s w ∧ -(2 ^ (bits - 1) : Int) ≤ w ∧ w < (2 ^ (bits - 1) : Int) ∧
      parseInt s bits = (w, true)) ∨ ((∀ w, Number s w → ¬ (-(2 ^ (bits - 1) : Int) ≤ w ∧ w < (2 ^ (bits - 1) : Int)))
        ∧ (parseInt s bits).2 = false) → (parseInt s bits = (v, true) ↔
      Number s v ∧ -(2 ^ (bits - 1) : Int) ≤ v ∧ v < (2 ^ (bits - 1) : Int)) := by
    rintro - (⟨w, h1, h2, h3, h4⟩ | ⟨h1, h2⟩)
    · rw [h4]
      constructor
      · intro e; cases e; exact ⟨h1, h2, h3⟩
      · rintro ⟨a, _⟩; rw [number_unique h1 a]
    · constructor
      · intro e; rw [e] at h2; cases h2
      · rintro ⟨a, b⟩; exact absurd b (h1 v a)
  apply key (A := True)
  rcases sign_cases s with ⟨r, rfl⟩ | ⟨r, rfl⟩ | ⟨h1, h2⟩
  · rcases parse_pos hb (fun v => number_plus) (parse_plus r bits) with ⟨v, a, b, c, d⟩ | ⟨a, b, _⟩ | ⟨a, b⟩
    · exact Or.inl ⟨v, a, by omega, b, d⟩
    · exact Or.inr ⟨fun w hw => by have := a w hw; omega, by rw [b]⟩
    · exact Or.inr ⟨fun w hw => absurd hw (a w), by rw [b]⟩
  · rcases parse_neg (r := r) hb with ⟨v, a, b, c, d⟩ | ⟨a, b, _⟩ | ⟨a, b⟩
    · exact Or.inl ⟨v, a, c, by omega, d⟩
    · exact Or.inr ⟨fun w hw => by have := a w hw; omega, by rw [b]⟩
    · exact Or.inr ⟨fun w hw => absurd hw (a w), by rw [b]⟩
  · rcases parse_pos hb (fun v => number_plain h1 h2) (parse_plain h1 h2 bits) with ⟨v, a, b, c, d⟩ | ⟨a, b, _⟩ | ⟨a, b⟩
    · exact Or.inl ⟨v, a, by omega, b, d⟩
    · exact Or.inr ⟨fun w hw => by have := a w hw; omega, by rw [b]⟩
    · exact Or.inr ⟨fun w hw => absurd hw (a w), by rw [b]⟩

/-- C55 (field numbers out of range): the nearest bound is used where the error is ignored. -/
theorem C55_number_range {bits : Nat} (hb : 0 < bits) {s : Str} {v : Int} (h : Number s v) :
    ((2 ^ (bits - 1) : Int) ≤ v → parseInt s bits = ((2 ^ (bits - 1) : Int) - 1, false)) ∧
    (v < -(2 ^ (bits - 1) : Int) → parseInt s bits = (-(2 ^ (bits - 1) : Int), false)) := by
  have hpos : (0 : Int) < 2 ^ (bits - 1) := Int.pow_pos (by omega)
  rcases sign_cases s with ⟨r, rfl⟩ | ⟨r, rfl⟩ | ⟨h1, h2⟩
  · obtain ⟨n, hn, rfl⟩ := number_plus.1 h
    rcases parse_pos hb (fun v => number_plus) (parse_plus r bits) with ⟨v, a, b, c, d⟩ | ⟨a, b, _⟩ | ⟨a, b⟩
    · have := number_unique a h
      exact ⟨fun _ => by omega, fun _ => by omega⟩
    · exact ⟨fun _ => b, fun _ => by omega⟩
    · exact absurd h (a _)
  · obtain ⟨n, hn, rfl⟩ := number_minus.1 h
    rcases parse_neg (r := r) hb with ⟨v, a, b, c, d⟩ | ⟨a, b, _⟩ | ⟨a, b⟩
    · have := number_unique a h
      exact ⟨fun _ => by omega, fun _ => by omega⟩
    · exact ⟨fun _ => by omega, fun _ => b⟩
    · exact absurd h (a _)
  · obtain ⟨n, hn, rfl⟩ := (number_plain h1 h2).1 h
    rcases parse_pos hb (fun v => number_plain h1 h2) (parse_plain h1 h2 bits) with ⟨v, a, b, c, d⟩ | ⟨a, b, _⟩ | ⟨a, b⟩
    · have := number_unique a h
      exact ⟨fun _ => by omega, fun _ => by omega⟩
    · exact ⟨fun _ => b, fun _ => by omega⟩
    · exact absurd h (a _)

/-- C55 (malformed field numbers): a text that denotes no integer is refused, and 0 is used where the error
is ignored — unless it begins with a number that is out of the unsigned range of the type. -/
theorem C55_number_malformed {bits : Nat} (hb : 0 < bits) {s : Str} (h : ∀ v, ¬ Number s v)
    (hpre : ∀ p q v, s = p ++ q → Number p v → -(2 ^ bits : Int) < v ∧ v < (2 ^ bits : Int)) :
    parseInt s bits = (0, false) := by
  have hcast : ((2 ^ bits : Nat) : Int) = (2 ^ bits : Int) := by push_cast; rfl
  rcases sign_cases s with ⟨r, rfl⟩ | ⟨r, rfl⟩ | ⟨h1, h2⟩
  · rcases parse_pos hb (fun v => number_plus) (parse_plus r bits) with ⟨v, a, _⟩ | ⟨_, _, ⟨v, a⟩ | ⟨p, q, n, rfl, hd, hn⟩⟩ | ⟨a, b⟩
    · exact absurd a (h v)
    · exact absurd a (h v)
    · have := (hpre (43 :: p) q n rfl (.plus _ _ hd)).2
      rw [← hcast] at this; omega
    · exact b
  · rcases parse_neg (r := r) hb with ⟨v, a, _⟩ | ⟨_, _, ⟨v, a⟩ | ⟨p, q, n, rfl, hd, hn⟩⟩ | ⟨a, b⟩
    · exact absurd a (h v)
    · exact absurd a (h v)
    · have := (hpre (45 :: p) q (-n) rfl (.minus _ _ hd)).1
      rw [← hcast] at this; omega
    · exact b
  · rcases parse_pos hb (fun v => number_plain h1 h2) (parse_plain h1 h2 bits) with ⟨v, a, _⟩ | ⟨_, _, ⟨v, a⟩ | ⟨p, q, n, e, hd, hn⟩⟩ | ⟨a, b⟩
    · exact absurd a (h v)
    · exact absurd a (h v)
    · have := (hpre p q n e (.plain _ _ hd)).2
      rw [← hcast] at this; omega
    · exact b

-- the cases are inhabited
example : Number (bs "-12") (-12) := .minus _ _ ⟨by decide, by decide, by decide⟩
example : parseInt (bs "-12") 32 = (-12, true) :=
  (C55_number (by decide) _ _).2 ⟨.minus _ _ ⟨by decide, by decide, by decide⟩, by decide, by decide⟩
example : parseInt (bs "99999999999x") 32 = (2147483647, false) := by decide +kernel
example : parseInt (bs "1:") 64 = (0, false) := by decide +kernel

/-! ## Replacing the first occurrence -/

/-- `t` is `s` with the first (leftmost) occurrence of `old` replaced by `new`, or `s` itself if there is
none. -/
inductive Replaced (old new s : Str) : Str → Prop
  | first (a b : Str) : s = a ++ old ++ b → (∀ a' b', s = a' ++ old ++ b' → a.length ≤ a'.length) →
      Replaced old new s (a ++ new ++ b)
  | none : (∀ a b, s ≠ a ++ old ++ b) → Replaced old new s s

/-- C53 (placeholders): replacing a placeholder replaces its first occurrence and nothing else. -/
theorem C53_replace {old : Str} (ho : old ≠ []) (new s t : Str) :
    replaceFirst old new s = t ↔ Replaced old new s t := by
  have fwd : ∀ s, Replaced old new s (replaceFirst old new s) := by
    intro s
    induction s with
    | nil =>
      refine .none (fun a b e => ?_)
      have e := congrArg List.length e
      have : 0 < old.length := List.length_pos_iff.2 ho
      simp only [List.length_append, List.length_nil] at e
      omega
    | cons c cs ih =>
      unfold replaceFirst
      split
      · rename_i hp
        unfold hasPrefix at hp
        rw [List.isPrefixOf_iff_prefix] at hp
        obtain ⟨b, hb⟩ := hp
        rw [← hb, List.drop_left]
        exact .first [] b (by simp) (fun _ _ _ => by simp)
      · rename_i hp
        have hp : ¬ old <+: c :: cs := by
          unfold hasPrefix at hp
          rwa [List.isPrefixOf_iff_prefix] at hp
        have nil_no : ∀ a' b', c :: cs = a' ++ old ++ b' → ∃ a'', a' = c :: a'' ∧ cs = a'' ++ old ++ b' := by
          intro a' b' e
          cases a' with
          | nil => exact absurd ⟨b', by rw [e]; simp⟩ hp
          | cons x a' =>
            simp only [List.cons_append, List.cons.injEq] at e
            obtain ⟨rfl, e⟩ := e
            exact ⟨a', rfl, e⟩
        generalize hr : replaceFirst old new cs = r at ih
        cases ih with
        | first a b h1 h2 =>
          refine .first (c :: a) b (by simp [h1]) (fun a' b' e => ?_)
          obtain ⟨a'', rfl, e'⟩ := nil_no a' b' e
          have := h2 a'' b' e'
          simp; omega
        | none h =>
          refine .none (fun a' b' e => ?_)
          obtain ⟨a'', _, e'⟩ := nil_no a' b' e
          exact h _ _ e'
  have uniq : ∀ {t u : Str}, Replaced old new s t → Replaced old new s u → t = u := by
    intro t u h1 h2
    cases h1 with
    | first a b e l =>
      cases h2 with
      | first a' b' e' l' =>
        have hl : a.length = a'.length := Nat.le_antisymm (l _ _ e') (l' _ _ e)
        have e2 : a ++ (old ++ b) = a' ++ (old ++ b') := by
          rw [← List.append_assoc, ← List.append_assoc, ← e, ← e']
        obtain ⟨r1, r2⟩ := List.append_inj e2 hl
        rw [r1, List.append_cancel_left r2]
      | none h => exact absurd e (h _ _)
    | none h =>
      cases h2 with
      | first a' b' e' _ => exact absurd e' (h _ _)
      | none => rfl
  constructor
  · rintro rfl; exact fwd s
  · exact fun h => uniq (fwd s) h

example : Replaced (bs "{id}") (bs "2") (bs "a.{id}.{id}") (bs "a.2.{id}") :=
  (C53_replace (by decide) _ _ _).1 (by decide +kernel)

/-! ## Fieldsets -/

/-- C61 (fieldset keys): a key of a fieldset stands for the data field of its last entry with that key, and
for field 0 if there is none. -/
theorem C61_lookup (fs : Fieldset) (key : Str) (k : Int) :
    fs.lookup key = k ↔
      (∃ a b, fs.fields = a ++ (key, k) :: b ∧ ∀ e ∈ b, e.1 ≠ key) ∨
      ((∀ e ∈ fs.fields, e.1 ≠ key) ∧ k = 0) := by
  unfold Fieldset.lookup
  cases h : fs.fields.reverse.find? (fun e => decide (e.1 = key)) with
  | none =>
    rw [List.find?_eq_none] at h
    have h' : ∀ e ∈ fs.fields, e.1 ≠ key := fun e he => by simpa using h e (by simpa using he)
    constructor
    · rintro rfl; exact Or.inr ⟨h', rfl⟩
    · rintro (⟨a, b, e, _⟩ | ⟨_, rfl⟩)
      · exact absurd rfl (h' (key, k) (by rw [e]; simp))
      · rfl
  | some e =>
    obtain ⟨h1, a, b, h2, h3⟩ := List.find?_eq_some_iff_append.1 h
    have h1 : e.1 = key := by simpa using h1
    have e1 : fs.fields = b.reverse ++ e :: a.reverse := by
      have := congrArg List.reverse h2
      simpa using this
    simp only
    have h3' : ∀ x ∈ a.reverse, x.1 ≠ key := fun x hx => by simpa using h3 x (by simpa using hx)
    constructor
    · rintro rfl
      exact Or.inl ⟨b.reverse, a.reverse, by rw [e1, ← h1], h3'⟩
    · rintro (⟨a', b', e', hb'⟩ | ⟨hn, _⟩)
      · rw [e1] at e'
        rcases List.append_eq_append_iff.1 e' with ⟨c, _, hc⟩ | ⟨c, _, hc⟩
        · cases c with
          | nil => simp only [List.nil_append, List.cons.injEq] at hc; rw [hc.1]
          | cons x c =>
            simp only [List.cons_append, List.cons.injEq] at hc
            exact absurd rfl (h3' (key, k) (by rw [hc.2]; simp))
        · cases c with
          | nil => simp only [List.nil_append, List.cons.injEq] at hc; rw [← hc.1]
          | cons x c =>
            simp only [List.cons_append, List.cons.injEq] at hc
            exact absurd h1 (hb' e (by rw [hc.2]; simp))
      · exact absurd h1 (hn e (by rw [e1]; simp))

example : (Fieldset.mk [] [(bs "date", 1), (bs "time", 2), (bs "date", 3)]).lookup (bs "date") = 3 := by
  decide +kernel

end Argo.Signalk
