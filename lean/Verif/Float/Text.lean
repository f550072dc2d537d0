import Verif.Float.Model

set_option autoImplicit false

/-! # Texts of floats are JSON numbers that say what they should -/

namespace Argo.Float

open Argo Argo.Json
open Argo.Signalk (Str bs)

/-! ## Digits -/

theorem digitsVal_append (a : Str) (b : Byte) : digitsVal (a ++ [b]) = 10 * digitsVal a + (b.toNat - 48) := by
  unfold digitsVal; rw [List.foldl_append]; rfl

theorem digitsVal_zeros_left (n : ℕ) (a : Str) : digitsVal (zeros n ++ a) = digitsVal a := by
  induction n with
  | zero => rfl
  | succ n ih => simpa [zeros, List.replicate_succ, digitsVal] using ih

theorem digitsVal_zeros_right (n : ℕ) (a : Str) : digitsVal (a ++ zeros n) = digitsVal a * 10 ^ n := by
  induction n with
  | zero => simp [zeros]
  | succ n ih =>
    rw [show zeros (n + 1) = zeros n ++ [48] from List.replicate_succ', ← List.append_assoc, digitsVal_append, ih]
    rw [show (48 : Byte).toNat - 48 = 0 from rfl, pow_succ]; ring

theorem digitsVal_nat (n : ℕ) : digitsVal (bs (toString n)) = n := by
  rw [dec_bytes, show (toString n).toList = Nat.toDigits 10 n from Nat.toList_repr]
  induction n using Nat.strongRecOn with
  | ind n ih =>
    have key : ∀ d : Fin 10, (UInt8.ofNat d.val.digitChar.toNat).toNat - 48 = d.val := by decide
    by_cases h : n < 10
    · rw [Nat.toDigits_of_lt_base h]
      have := key ⟨n, h⟩
      simpa [digitsVal, ascii] using this
    · rw [Nat.toDigits_of_base_le (by omega) (by omega), show ∀ a : List Char, ∀ c, ascii (a ++ [c]) = ascii a ++ [UInt8.ofNat c.toNat] from
        fun a c => by simp [ascii], digitsVal_append, ih (n / 10) (by omega), key ⟨n % 10, by omega⟩]
      simp only
      omega

theorem nat_digits (n : ℕ) : ∀ b ∈ bs (toString n), isDigit b = true := by
  obtain ⟨b, l, e, h1, h2, _⟩ := dec_shape n
  rw [e]
  intro x hx
  rcases List.mem_cons.mp hx with rfl | hx
  · exact h1
  · exact h2 x hx

theorem zeros_digits (n : ℕ) : ∀ b ∈ zeros n, isDigit b = true := by
  intro b hb
  rw [List.eq_of_mem_replicate hb]; decide

/-! ## Numbers of four parts -/

/-- A text: sign, digits, digits after the point, exponent. -/
def text (neg : Bool) (i f : Str) (e : Option (Bool × ℕ)) : Str :=
  (if neg then [45] else []) ++ i ++ (if f = [] then [] else 46 :: f) ++
    match e with
    | none => []
    | some (s, n) => [101, if s then 45 else 43] ++ bs (toString n)

def expo : Option (Bool × ℕ) → ℤ
  | none => 0
  | some (s, n) => if s then -n else n

theorem span_digits {i r : Str} (hi : ∀ b ∈ i, isDigit b = true) (hr : ∀ b, r.head? = some b → isDigit b = false) :
    (i ++ r).takeWhile isDigit = i ∧ (i ++ r).dropWhile isDigit = r := by
  have h1 : r.takeWhile isDigit = [] ∧ r.dropWhile isDigit = r := by
    cases r with
    | nil => exact ⟨rfl, rfl⟩
    | cons b r =>
      have := hr b rfl
      constructor
      · rw [List.takeWhile_cons_of_neg (by simp [this])]
      · rw [List.dropWhile_cons_of_neg (by simp [this])]
  rw [List.takeWhile_append_of_pos hi, List.dropWhile_append_of_pos hi, h1.1, h1.2, List.append_nil]
  exact ⟨rfl, rfl⟩

theorem decimal_text (neg : Bool) {i f : Str} (e : Option (Bool × ℕ)) (hi : ∀ b ∈ i, isDigit b = true) (hi0 : i ≠ [])
    (hf : ∀ b ∈ f, isDigit b = true) :
    decimal (text neg i f e) = (if neg then -1 else 1) * digitsVal (i ++ f) * 10 ^ (expo e - f.length) := by
  obtain ⟨b, l, rfl⟩ := List.exists_cons_of_ne_nil hi0
  have hb := hi b (by simp)
  have hb45 : b ≠ 45 := isDigit_ne_minus hb
  set tail : Str := (match e with
    | none => []
    | some (s, n) => [101, if s then 45 else 43] ++ bs (toString n)) with ht
  have htail : ∀ b, tail.head? = some b → isDigit b = false ∧ b ≠ 46 := by
    intro b hb
    rw [ht] at hb
    cases e with
    | none => simp at hb
    | some e =>
      obtain ⟨s, n⟩ := e
      simp only [List.cons_append, List.head?_cons, Option.some.injEq] at hb
      subst hb; decide
  set rest : Str := (if f = [] then [] else 46 :: f) ++ tail with hrest
  have hdrop : (if (text neg (b :: l) f e).head? = some 45 then (text neg (b :: l) f e).drop 1 else text neg (b :: l) f e) =
      b :: l ++ rest := by
    unfold text
    cases neg
    · rw [if_neg (by simp [hb45])]
      simp [hrest, ht]
    · rw [if_pos (by simp)]
      simp [hrest, ht]
  have hneg : ((text neg (b :: l) f e).head? = some 45) = (neg = true) := by
    unfold text
    cases neg <;> simp [hb45]
  have hr : ∀ b, rest.head? = some b → isDigit b = false := by
    intro b hb
    rw [hrest] at hb
    split at hb
    · exact (htail b (by simpa using hb)).1
    · simp only [List.cons_append, List.head?_cons, Option.some.injEq] at hb
      subst hb; decide
  obtain ⟨s1, s2⟩ := span_digits hi hr
  have hf1 : (if rest.head? = some 46 then (rest.drop 1).takeWhile isDigit else []) = f := by
    rw [hrest]
    by_cases h : f = []
    · rw [if_pos h, List.nil_append, if_neg (fun hh => (htail _ hh).2 rfl), h]
    · rw [if_neg h, if_pos (by simp)]
      simpa using (span_digits hf (fun b hb => (htail b hb).1)).1
  have hf2 : (if rest.head? = some 46 then (rest.drop 1).dropWhile isDigit else rest) = tail := by
    rw [hrest]
    by_cases h : f = []
    · rw [if_pos h, List.nil_append, if_neg (fun hh => (htail _ hh).2 rfl)]
    · rw [if_neg h, if_pos (by simp)]
      simpa using (span_digits hf (fun b hb => (htail b hb).1)).2
  have he : (if tail.head? = some 101 ∨ tail.head? = some 69 then
      if (tail.drop 1).head? = some 45 then -((digitsVal (tail.drop 2) : ℕ) : ℤ)
      else if (tail.drop 1).head? = some 43 then ((digitsVal (tail.drop 2) : ℕ) : ℤ) else ((digitsVal (tail.drop 1) : ℕ) : ℤ)
    else 0) = expo e := by
    rw [ht]
    cases e with
    | none => rfl
    | some e =>
      obtain ⟨s, n⟩ := e
      have := digitsVal_nat n
      cases s <;> simp [expo] <;> exact this
  unfold decimal
  simp only [hneg] at hdrop ⊢
  simp only [hdrop, s1, s2, hf1, hf2, he]

/-- The grammar. -/
theorem number_text (neg : Bool) {i f : Str} (e : Option (Bool × ℕ)) {b : Byte} {l : Str} (hi : i = b :: l)
    (hb : isDigit b = true) (hl : ∀ x ∈ l, isDigit x = true) (h0 : b ≠ 48 ∨ l = []) (hf : ∀ b ∈ f, isDigit b = true) :
    IsNumber (text neg i f e) := by
  subst hi
  have hb45 : b ≠ 45 := isDigit_ne_minus hb
  set tail : Str := (match e with
    | none => []
    | some (s, n) => [101, if s then 45 else 43] ++ bs (toString n)) with ht
  have htail : ∀ b, tail.head? = some b → isDigit b = false ∧ b ≠ 46 := by
    intro b hb
    rw [ht] at hb
    cases e with
    | none => simp at hb
    | some e =>
      obtain ⟨s, n⟩ := e
      simp only [List.cons_append, List.head?_cons, Option.some.injEq] at hb
      subst hb; decide
  set rest : Str := (if f = [] then [] else 46 :: f) ++ tail with hrest
  have hr : ∀ b, rest.head? = some b → isDigit b = false := by
    intro b hb
    rw [hrest] at hb
    split at hb
    · exact (htail b (by simpa using hb)).1
    · simp only [List.cons_append, List.head?_cons, Option.some.injEq] at hb
      subst hb; decide
  have h1 : intPart (b :: l ++ rest) = some (b :: l, rest) := by
    rw [List.cons_append]
    unfold intPart
    simp only
    by_cases h : b = 48
    · rcases h0 with h0 | rfl
      · exact absurd h h0
      · rw [if_pos h]; rfl
    · rw [if_neg h, if_pos hb]
      have := span_digits hl hr
      unfold digits
      rw [this.1, this.2]
  have h2 : fracPart rest = some (if f = [] then [] else 46 :: f, tail) := by
    rw [hrest]
    by_cases h : f = []
    · rw [if_pos h, List.nil_append]
      unfold fracPart
      cases htl : tail with
      | nil => rfl
      | cons c r => simp only [if_neg (htail c (by rw [htl]; rfl)).2]
    · rw [if_neg h, List.cons_append]
      unfold fracPart
      have := span_digits hf (fun b hb => (htail b hb).1)
      simp only [if_true, digits, this.1, this.2, if_neg h]
  have h3 : expPart tail = some (tail, []) := by
    rw [ht]
    cases e with
    | none => rfl
    | some e =>
      obtain ⟨s, n⟩ := e
      have hd := digits_all (nat_digits n)
      obtain ⟨x, y, hx, _⟩ := dec_shape n
      have hs : (if s = true then (45 : Byte) else 43) = 43 ∨ (if s = true then (45 : Byte) else 43) = 45 := by
        cases s <;> simp
      simp only [List.cons_append, List.nil_append, expPart]
      rw [if_pos (Or.inl trivial), if_pos hs, hd, if_neg (by rw [hx]; simp)]
  have e1 : text neg (b :: l) f e = (if neg then [45] else []) ++ (b :: l ++ rest) := by
    unfold text
    simp [hrest, ht]
  have e2 : (b :: l) ++ (if f = [] then [] else 46 :: f) ++ tail = b :: l ++ rest := by
    rw [List.append_assoc]
  unfold IsNumber
  rw [e1]
  unfold Json.number
  cases neg
  · simp only [Bool.false_eq_true, if_false, List.nil_append, List.cons_append, if_neg hb45] at h1 ⊢
    rw [h1]
    simp only [h2, h3]
    rw [e2, List.cons_append]
  · simp only [if_true, List.cons_append, List.nil_append] at h1 ⊢
    rw [h1]
    simp only [h2, h3]
    rw [List.append_assoc]; rfl

/-! ## The layouts -/

/-- The texts of `layoutF` and `layoutE` are of four parts. -/
theorem layoutF_text (neg : Bool) (m : ℕ) (k : ℤ) : ∃ i f b l, (if neg then [45] else []) ++ layoutF m k = text neg i f none ∧
    i = b :: l ∧ isDigit b = true ∧ (∀ x ∈ l, isDigit x = true) ∧ (b ≠ 48 ∨ l = [] ∨ (m = 0 ∧ 0 < k)) ∧
    (∀ x ∈ f, isDigit x = true) ∧ ((digitsVal (i ++ f) : ℕ) : ℚ) * 10 ^ (0 - (f.length : ℤ)) = m * 10 ^ k := by
  obtain ⟨b, l, e, h1, h2, h3⟩ := dec_shape m
  have hv := digitsVal_nat m
  have hd := nat_digits m
  unfold layoutF
  by_cases hk : 0 ≤ k
  · obtain ⟨j, rfl⟩ := Int.eq_ofNat_of_zero_le hk
    refine ⟨bs (toString m) ++ zeros j, [], b, l ++ zeros j, ?_, by rw [e]; rfl, h1, ?_, ?_, by simp, ?_⟩
    · simp [text]
    · intro x hx
      rcases List.mem_append.mp hx with hx | hx
      · exact h2 x hx
      · exact zeros_digits j x hx
    · rcases h3 with h3 | h3
      · exact Or.inl h3
      · by_cases hb : b = 48
        · right
          have : m = 0 := by rw [← hv, e, h3, hb]; rfl
          by_cases hj : j = 0
          · left; rw [h3, hj]; rfl
          · right; exact ⟨this, by omega⟩
        · exact Or.inl hb
    · rw [List.append_nil, digitsVal_zeros_right, hv]
      push_cast
      simp
  · obtain ⟨j, hj⟩ := Int.eq_ofNat_of_zero_le (show 0 ≤ -k by omega)
    have hkj : k = -(j : ℤ) := by omega
    subst hkj
    have hj0 : j ≠ 0 := by omega
    simp only [hk, if_false, neg_neg, Int.toNat_natCast]
    by_cases hlt : j < (bs (toString m)).length
    · rw [if_pos hlt]
      have hne : (bs (toString m)).drop ((bs (toString m)).length - j) ≠ [] := by
        intro h
        have := congrArg List.length h
        rw [List.length_drop, List.length_nil] at this
        omega
      refine ⟨(bs (toString m)).take ((bs (toString m)).length - j), (bs (toString m)).drop ((bs (toString m)).length - j), b,
        l.take ((bs (toString m)).length - j - 1), ?_, ?_, h1, ?_, ?_, ?_, ?_⟩
      · unfold text
        rw [if_neg hne]
        simp
      · obtain ⟨q, hq⟩ : ∃ q, (bs (toString m)).length - j = q + 1 := ⟨(bs (toString m)).length - j - 1, by omega⟩
        rw [hq, e]
        rfl
      · intro x hx; exact h2 x (List.mem_of_mem_take hx)
      · rcases h3 with h3 | h3
        · exact Or.inl h3
        · right; left; rw [h3]; simp
      · intro x hx; exact hd x (List.mem_of_mem_drop hx)
      · rw [List.take_append_drop, hv, List.length_drop]
        congr 2
        omega
    · rw [if_neg hlt]
      refine ⟨[48], zeros (j - (bs (toString m)).length) ++ bs (toString m), 48, [], ?_, rfl, by decide, by simp, Or.inr (Or.inl rfl), ?_, ?_⟩
      · unfold text
        have hne : zeros (j - (bs (toString m)).length) ++ bs (toString m) ≠ [] := by rw [e]; simp
        rw [if_neg hne]
        simp
      · intro x hx
        rcases List.mem_append.mp hx with hx | hx
        · exact zeros_digits _ x hx
        · exact hd x hx
      · rw [show [(48 : Byte)] ++ (zeros (j - (bs (toString m)).length) ++ bs (toString m)) =
          zeros (j - (bs (toString m)).length + 1) ++ bs (toString m) by
            rw [← List.append_assoc]; rfl]
        rw [digitsVal_zeros_left, hv, List.length_append, zeros, List.length_replicate]
        congr 2
        omega

theorem layoutE_text (neg : Bool) (m : ℕ) (k : ℤ) : ∃ i f b l x, (if neg then [45] else []) ++ layoutE m k = text neg i f (some x) ∧
    i = b :: l ∧ isDigit b = true ∧ l = [] ∧
    (∀ x ∈ f, isDigit x = true) ∧ ((digitsVal (i ++ f) : ℕ) : ℚ) * 10 ^ (expo (some x) - (f.length : ℤ)) = m * 10 ^ k := by
  obtain ⟨b, l, e, h1, h2, h3⟩ := dec_shape m
  have hv := digitsVal_nat m
  unfold layoutE
  refine ⟨[b], l, b, [], (decide (((bs (toString m)).length : ℤ) - 1 + k < 0), (((bs (toString m)).length : ℤ) - 1 + k).natAbs),
    ?_, rfl, h1, rfl, h2, ?_⟩
  · unfold text
    rw [e]
    by_cases hl : l = []
    · subst hl; simp
    · have hlen : l.length + 1 ≠ 1 := by
        have := List.length_pos_of_ne_nil hl; omega
      simp [hl]
  · rw [show [b] ++ l = b :: l from rfl, ← e, hv]
    congr 2
    have hlen : ((bs (toString m)).length : ℤ) = l.length + 1 := by rw [e]; simp
    simp only [expo, decide_eq_true_eq]
    split <;> omega

/-- **The text of a float** is a JSON number that stands for the decimal number found. -/
theorem layout_spec (F : Fmt) (x : ℚ) {m : ℕ} {k : ℤ} (h : m = 0 → k = 0) :
    IsNumber (layout F x m k) ∧ decimal (layout F x m k) = (if x < 0 then -1 else 1) * (m * 10 ^ k) := by
  unfold layout
  have hneg : (if x < 0 then [(45 : Byte)] else []) = if decide (x < 0) = true then [45] else [] := by simp
  have hs : (if x < 0 then (-1 : ℚ) else 1) = if decide (x < 0) = true then -1 else 1 := by simp
  rw [hneg, hs]
  by_cases hc : x ≠ 0 ∧ (|x| < F.round (1 / 10 ^ 6) ∨ F.round (10 ^ 21) ≤ |x|)
  · rw [if_pos hc]
    obtain ⟨i, f, b, l, e, h1, h2, h3, h4, h5, h6⟩ := layoutE_text (decide (x < 0)) m k
    rw [h1]
    subst h4
    refine ⟨number_text _ _ h2 h3 (by simp) (Or.inr rfl) h5, ?_⟩
    rw [decimal_text _ _ (by rw [h2]; simpa using h3) (by rw [h2]; simp) h5, mul_assoc, h6]
  · rw [if_neg hc]
    obtain ⟨i, f, b, l, h1, h2, h3, h4, h5, h6, h7⟩ := layoutF_text (decide (x < 0)) m k
    rw [h1]
    have h5' : b ≠ 48 ∨ l = [] := by
      rcases h5 with h5 | h5 | h5
      · exact Or.inl h5
      · exact Or.inr h5
      · have := h h5.1; omega
    refine ⟨number_text _ _ h2 h3 h4 h5' h6, ?_⟩
    rw [decimal_text _ _ (by rw [h2]; intro y hy; rcases List.mem_cons.mp hy with rfl | hy; exacts [h3, h4 y hy]) (by rw [h2]; simp) h6, mul_assoc,
      show expo none = 0 from rfl, h7]

end Argo.Float
