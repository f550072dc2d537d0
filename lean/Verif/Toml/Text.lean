import Verif.Toml.Spec
import Verif.Toml.Model
import Verif.Json.Text

set_option autoImplicit false

/-! # Lemmas: reading what the encoder writes -/

namespace Argo.Toml

open Argo Config Signalk

/-! ## Lines -/

/-- Lines, each with its end. -/
def joined (ls : List Str) : Str := ls.flatMap (fun l => l ++ [10])

theorem joined_append (a b : List Str) : joined (a ++ b) = joined a ++ joined b := by simp [joined]

theorem lines_append (l : Str) (h : (10 : UInt8) ∉ l) (h13 : l.getLast? ≠ some 13) (t : Str) :
    lines (l ++ 10 :: t) = l :: lines t := by
  induction l with
  | nil => simp [lines]
  | cons b l ih =>
    have hb : b ≠ 10 := by rintro rfl; exact h (by simp)
    have hl : (10 : UInt8) ∉ l := fun hh => h (by simp [hh])
    simp only [List.cons_append, lines, hb, if_false]
    cases l with
    | nil =>
      have : b ≠ 13 := by rintro rfl; exact h13 rfl
      simp [this, lines]
    | cons x xs =>
      have hx : x ≠ 10 := by rintro rfl; exact hl (by simp)
      rw [if_neg (by rintro ⟨_, h⟩; simp at h; exact hx h)]
      rw [ih hl (by rw [List.getLast?_cons_cons] at h13; exact h13)]

/-- A line of one piece. -/
def OneLine (l : Str) : Prop := (10 : UInt8) ∉ l ∧ l.getLast? ≠ some 13

theorem lines_joined (ls : List Str) (h : ∀ l ∈ ls, OneLine l) : lines (joined ls) = ls ++ [[]] := by
  induction ls with
  | nil => rfl
  | cons l ls ih =>
    have : joined (l :: ls) = l ++ 10 :: joined ls := by simp [joined]
    rw [this, lines_append l (h l (by simp)).1 (h l (by simp)).2, ih (fun x hx => h x (by simp [hx]))]
    rfl

theorem allLines_append (strict : Bool) (a b : List Str) (x y : List Line) (ha : allLines strict a = some x)
    (hb : allLines strict b = some y) : allLines strict (a ++ b) = some (x ++ y) := by
  induction a generalizing x with
  | nil => simp only [allLines, Option.some.injEq] at ha; subst ha; exact hb
  | cons l a ih =>
    simp only [allLines] at ha
    cases hl : line strict l with
    | none => simp [hl] at ha
    | some v =>
      cases hr : allLines strict a with
      | none => simp [hl, hr] at ha
      | some w =>
        simp only [hl, hr, Option.some.injEq] at ha
        subst ha
        simp [allLines, hl, ih w hr]

theorem allLines_map {α : Type} (strict : Bool) (l : List α) (f : α → Str) (g : α → Line)
    (h : ∀ a ∈ l, line strict (f a) = some (g a)) : allLines strict (l.map f) = some (l.map g) := by
  induction l with
  | nil => rfl
  | cons a l ih => simp [allLines, h a (by simp), ih (fun x hx => h x (by simp [hx]))]

theorem allLines_none (strict : Bool) (ls : List Str) (l : Str) (hl : l ∈ ls) (h : line strict l = none) :
    allLines strict ls = none := by
  induction ls with
  | nil => simp at hl
  | cons a ls ih =>
    rcases List.mem_cons.mp hl with rfl | hl
    · simp [allLines, h]
    · simp only [allLines, ih hl]
      split <;> simp_all

/-! ## Strings -/

/-- A byte that comes back when it stands in a string value. -/
def fine (strict : Bool) (b : UInt8) : Prop :=
  if strict then 32 ≤ b.toNat ∨ b = 9 ∨ b = 10 ∨ b = 13 else b ≠ 0

theorem basic_escaped (strict : Bool) (s : Str) (h : ∀ b ∈ s, fine strict b) (n : Nat) (hn : s.length < n) (r : Str) :
    basic strict n (s.flatMap escaped ++ 34 :: r) = some (s, r) := by
  induction s generalizing n with
  | nil =>
    cases n with
    | zero => simp at hn
    | succ n => simp [basic]
  | cons b s ih =>
    cases n with
    | zero => simp at hn
    | succ n =>
      have ih := ih (fun x hx => h x (by simp [hx])) n (by simp at hn; omega)
      have hb := h b (by simp)
      rw [List.flatMap_cons, List.append_assoc]
      have he : (escaped b = [b] ∧ b ≠ 34 ∧ b ≠ 92 ∧ banned strict b = false) ∨
          ∃ e, escaped b = [92, e] ∧ short e = some b := by
        unfold escaped
        split_ifs with h1 h2 h3 h4 h5
        · subst h1; exact Or.inr ⟨_, rfl, rfl⟩
        · subst h2; exact Or.inr ⟨_, rfl, rfl⟩
        · subst h3; exact Or.inr ⟨_, rfl, rfl⟩
        · subst h4; exact Or.inr ⟨_, rfl, rfl⟩
        · subst h5; exact Or.inr ⟨_, rfl, rfl⟩
        · refine Or.inl ⟨rfl, h4, h5, ?_⟩
          unfold fine at hb
          unfold banned
          cases strict
          · simp only [Bool.false_eq_true, if_false] at hb ⊢
            simp [hb, h2, h3]
          · simp only [if_true] at hb ⊢
            simp [h1, h2, h3] at hb
            simpa using hb
      rcases he with ⟨he, h34, h92, hban⟩ | ⟨e, he, hs⟩
      · rw [he]; simp [basic, character, h34, h92, hban, ih]
      · rw [he]; simp [basic, character, hs, ih]

/-- A byte that comes back when it stands in a quoted key. -/
def keeps (strict : Bool) (b : UInt8) : Prop := b ≠ 92 ∧ banned strict b = false

/-- How the encoder writes the inside of a quoted key. -/
abbrev quotes (k : Str) : Str := k.flatMap (fun b => if b = 34 then [92, 34] else [b])

theorem basic_quotes (strict : Bool) (k : Str) (h : ∀ b ∈ k, keeps strict b) (n : Nat) (hn : k.length < n) (r : Str) :
    basic strict n (quotes k ++ 34 :: r) = some (k, r) := by
  induction k generalizing n with
  | nil =>
    cases n with
    | zero => simp at hn
    | succ n => simp [basic]
  | cons b s ih =>
    cases n with
    | zero => simp at hn
    | succ n =>
      have ih := ih (fun x hx => h x (by simp [hx])) n (by simp at hn; omega)
      have hb := h b (by simp)
      have hq : quotes (b :: s) = (if b = 34 then [92, 34] else [b]) ++ quotes s := by rw [quotes, List.flatMap_cons]
      rw [hq, List.append_assoc]
      generalize quotes s = q at ih
      split_ifs with h1
      · subst h1
        have hs : short 34 = some 34 := rfl
        simp [basic, character, hs, ih]
      · simp [basic, character, h1, hb.1, hb.2, ih]

theorem bare_eq : bareKeyChar = bare := rfl

theorem bare_not {b : UInt8} (h : bare b = true) : b ≠ 34 ∧ b ≠ 39 ∧ b ≠ 32 ∧ b ≠ 9 ∧ b ≠ 35 ∧ b ≠ 91 ∧ b ≠ 10 ∧ b ≠ 13 := by
  refine ⟨?_, ?_, ?_, ?_, ?_, ?_, ?_, ?_⟩ <;> (rintro rfl; revert h; decide)

theorem takeWhile_all {α : Type} (p : α → Bool) (k : List α) (hk : ∀ b ∈ k, p b = true) (r : List α)
    (hr : ∀ b, r.head? = some b → p b = false) : (k ++ r).takeWhile p = k ∧ (k ++ r).dropWhile p = r := by
  induction k with
  | nil =>
    cases r with
    | nil => simp
    | cons b r => simp [hr b rfl]
  | cons a k ih =>
    have := ih (fun b hb => hk b (by simp [hb]))
    simp [hk a (by simp), this]

theorem key_bare (strict : Bool) (k : Str) (h0 : k ≠ []) (hk : k.all bare = true) (r : Str)
    (hr : ∀ b, r.head? = some b → bare b = false) : key strict (k ++ r) = some (k, r) := by
  cases k with
  | nil => exact absurd rfl h0
  | cons b k =>
    have hall : ∀ x ∈ b :: k, bare x = true := by simpa using hk
    have hb := bare_not (hall b (by simp))
    have := takeWhile_all bare (b :: k) hall r hr
    simp only [List.cons_append] at this ⊢
    simp only [key, hb.1, hb.2.1, if_false, hall b (by simp), if_true, this.1, this.2]

theorem key_text (strict : Bool) (k : Str) (h0 : k ≠ []) (hk : ∀ b ∈ k, keeps strict b) (r : Str)
    (hr : ∀ b, r.head? = some b → bare b = false) : key strict (keyText k ++ r) = some (k, r) := by
  unfold keyText
  rw [bare_eq]
  split_ifs with h
  · exact key_bare strict k h0 h r hr
  · simp only [List.cons_append, List.append_assoc, key, if_true, List.nil_append]
    exact basic_quotes strict k hk _ (by
      have : k.length ≤ (quotes k).length := by
        clear h hk h0
        induction k with
        | nil => simp
        | cons b k ih => simp only [quotes, List.flatMap_cons, List.length_append, List.length_cons] at ih ⊢; split_ifs <;> simp only [List.length_cons, List.length_nil] <;> omega
      simp only [List.length_append, List.length_cons]
      simp only [quotes] at this
      omega) r

/-! ## Numbers -/

theorem decimal_append (acc : Nat) (a b : Str) : decimal acc (a ++ b) = (decimal acc a).bind (fun n => decimal n b) := by
  induction a generalizing acc with
  | nil => rfl
  | cons x a ih =>
    simp only [List.cons_append, decimal]
    split_ifs
    · exact ih _
    · rfl

theorem decimal_toDigits (n : Nat) : decimal 0 ((Nat.toDigits 10 n).map (fun c => UInt8.ofNat c.toNat)) = some n := by
  induction n using Nat.strongRecOn with
  | ind n ih =>
    by_cases h : n < 10
    · rw [Nat.toDigits_of_lt_base h]
      have key : ∀ n : Fin 10, decimal 0 ([n.val.digitChar].map (fun c => UInt8.ofNat c.toNat)) = some n.val := by decide +kernel
      exact key ⟨n, h⟩
    · rw [Nat.toDigits_of_base_le (by omega) (by omega), List.map_append, decimal_append, ih (n / 10) (by omega)]
      have key : ∀ d : Fin 10, ∀ acc, decimal acc ([d.val.digitChar].map (fun c => UInt8.ofNat c.toNat)) = some (acc * 10 + d.val) := by
        intro d acc
        have h1 : ∀ d : Fin 10, 48 ≤ (UInt8.ofNat d.val.digitChar.toNat).toNat ∧ (UInt8.ofNat d.val.digitChar.toNat).toNat ≤ 57 ∧
          (UInt8.ofNat d.val.digitChar.toNat).toNat - 48 = d.val := by decide +kernel
        obtain ⟨a, b, c⟩ := h1 d
        simp only [List.map_cons, List.map_nil, decimal, a, b, c, and_self, if_true]
      have := key ⟨n % 10, by omega⟩ (n / 10)
      simp only [Option.bind_some]
      rw [this]
      simp only [Option.some.injEq]
      omega

theorem decimal_dec (n : Nat) : decimal 0 (bs (toString n)) = some n := by
  have ht : (toString n).toList = Nat.toDigits 10 n := Nat.toList_repr
  rw [Json.dec_bytes, ht]
  exact decimal_toDigits n

theorem integer_nat (n : Nat) (h : n < 2 ^ 63) : integer (bs (toString n)) = some (n : Int) := by
  obtain ⟨b, l, hb, hd, hl, h0⟩ := Json.dec_shape n
  have hv := decimal_dec n
  rw [hb] at hv ⊢
  have hb45 : b ≠ 45 := Json.isDigit_ne_minus hd
  have hb43 : b ≠ 43 := by rintro rfl; revert hd; decide
  unfold integer
  simp only [hb45, hb43, if_false]
  rw [if_neg (by rintro ⟨h1, h2⟩; rcases h0 with h0 | h0 <;> contradiction), hv]
  simp only [Bool.false_eq_true, if_false]
  rw [if_pos (by omega)]

theorem integer_big (n : Nat) (h : 2 ^ 63 ≤ n) : integer (bs (toString n)) = none := by
  obtain ⟨b, l, hb, hd, hl, h0⟩ := Json.dec_shape n
  have hv := decimal_dec n
  rw [hb] at hv ⊢
  have hb45 : b ≠ 45 := Json.isDigit_ne_minus hd
  have hb43 : b ≠ 43 := by rintro rfl; revert hd; decide
  unfold integer
  simp only [hb45, hb43, if_false]
  rw [if_neg (by rintro ⟨h1, h2⟩; rcases h0 with h0 | h0 <;> contradiction), hv]
  simp only [Bool.false_eq_true, if_false]
  rw [if_neg (by omega)]

theorem int_shape (n : Int) : (∃ m : Nat, n = m ∧ bs (toString n) = bs (toString m)) ∨
    ∃ m : Nat, 0 < m ∧ n = -(m : Int) ∧ bs (toString n) = 45 :: bs (toString m) := by
  cases n with
  | ofNat m => exact Or.inl ⟨m, rfl, rfl⟩
  | negSucc m =>
    refine Or.inr ⟨m + 1, by omega, by omega, ?_⟩
    have : toString (Int.negSucc m) = "-" ++ toString (m + 1) := rfl
    rw [this, Json.bs_append]
    rfl

theorem integer_int (n : Int) (h1 : -2 ^ 63 ≤ n) (h2 : n < 2 ^ 63) : integer (bs (toString n)) = some n := by
  rcases int_shape n with ⟨m, rfl, hm⟩ | ⟨m, hm0, rfl, hm⟩
  · rw [hm]; exact integer_nat m (by omega)
  · rw [hm]
    obtain ⟨b, l, hb, hd, hl, h0⟩ := Json.dec_shape m
    have hv := decimal_dec m
    rw [hb] at hv ⊢
    unfold integer
    simp only [if_true]
    rw [if_neg (by rintro ⟨h1, h2⟩; rcases h0 with h0 | h0 <;> contradiction), hv]
    simp only [if_true]
    rw [if_pos (by omega)]

theorem int_bytes (n : Int) : ∀ b ∈ bs (toString n), b = 45 ∨ (48 ≤ b.toNat ∧ b.toNat ≤ 57) := by
  have hnat : ∀ m : Nat, ∀ b ∈ bs (toString m), b = 45 ∨ (48 ≤ b.toNat ∧ b.toNat ≤ 57) := by
    intro m b hb
    obtain ⟨a, l, ha, hd, hl, _⟩ := Json.dec_shape m
    rw [ha] at hb
    have : Json.isDigit b = true := by
      rcases List.mem_cons.mp hb with rfl | hb
      · exact hd
      · exact hl b hb
    right
    unfold Json.isDigit at this
    simpa using this
  rcases int_shape n with ⟨m, rfl, hm⟩ | ⟨m, _, rfl, hm⟩
  · rw [hm]; exact hnat m
  · rw [hm]
    intro b hb
    rcases List.mem_cons.mp hb with rfl | hb
    · exact Or.inl rfl
    · exact hnat m b hb

theorem int_ne_nil (n : Int) : ∃ b l, bs (toString n) = b :: l := by
  rcases int_shape n with ⟨m, rfl, hm⟩ | ⟨m, _, rfl, hm⟩
  · rw [hm]; obtain ⟨b, l, hb, _⟩ := Json.dec_shape m; exact ⟨b, l, hb⟩
  · rw [hm]; exact ⟨_, _, rfl⟩

/-! ## Values -/

/-- A Go value as a value of TOML. -/
def toValue : Scalar → Value
  | .str s => .str s
  | .int n => .int n
  | .bool b => .bool b

/-- A value that comes back: a string without characters that cannot stand in it, a number of 64 bits. -/
def Sound (strict : Bool) : Scalar → Prop
  | .str s => ∀ b ∈ s, fine strict b
  | .int n => -2 ^ 63 ≤ n ∧ n < 2 ^ 63
  | .bool _ => True

theorem escaped_length (s : Str) : s.length ≤ (s.flatMap escaped).length := by
  induction s with
  | nil => simp
  | cons b s ih =>
    simp only [List.flatMap_cons, List.length_append, List.length_cons]
    have : 1 ≤ (escaped b).length := by unfold escaped; split_ifs <;> simp
    omega

theorem value_text (strict : Bool) (v : Scalar) (h : Sound strict v) : value strict (scalarText v) = some (toValue v, []) := by
  cases v with
  | str s =>
    simp only [scalarText, quoted, List.cons_append, value, if_true]
    rw [basic_escaped strict s h _ (by simp only [List.length_append, List.length_cons]; have := escaped_length s; omega) []]
    rfl
  | bool b => cases b <;> cases strict <;> decide +kernel
  | int n =>
    obtain ⟨b, l, hb⟩ := int_ne_nil n
    have hv := integer_int n h.1 h.2
    have hall : ∀ x ∈ b :: l, x = 45 ∨ (48 ≤ x.toNat ∧ x.toNat ≤ 57) := by rw [← hb]; exact int_bytes n
    have hne : ∀ c : UInt8, c ≠ 45 → (c.toNat < 48 ∨ 57 < c.toNat) → c ∉ b :: l := by
      intro c h1 h2 hc
      rcases hall c hc with h | h
      · exact h1 h
      · omega
    have h34 : b ≠ 34 := by rintro rfl; exact hne 34 (by decide) (by decide) (by simp)
    have h39 : b ≠ 39 := by rintro rfl; exact hne 39 (by decide) (by decide) (by simp)
    have hw := takeWhile_all (fun b => !(isBlank b || b = 35)) (b :: l) (by
      intro x hx
      rcases hall x hx with rfl | h
      · decide
      · unfold isBlank
        have h1 : x ≠ 32 := by rintro rfl; revert h; decide
        have h2 : x ≠ 9 := by rintro rfl; revert h; decide
        have h3 : x ≠ 35 := by rintro rfl; revert h; decide
        simp [h1, h2, h3]) [] (by simp)
    simp only [List.append_nil] at hw
    have hb102 : b ≠ 102 := by rintro rfl; exact hne 102 (by decide) (by decide) (by simp)
    have hb116 : b ≠ 116 := by rintro rfl; exact hne 116 (by decide) (by decide) (by simp)
    simp only [scalarText]
    rw [hb] at hv ⊢
    simp only [value, h34, h39, if_false, hw.1, hw.2, hv]
    rw [if_neg (by intro h; exact hb116 (List.cons.inj h).1), if_neg (by intro h; exact hb102 (List.cons.inj h).1)]
    rfl

theorem skip_blanks (n : Nat) (t : Str) (h : ∀ b, t.head? = some b → isBlank b = false) : skip (List.replicate n 32 ++ t) = t :=
  (takeWhile_all isBlank (List.replicate n 32) (by simp [isBlank]) t h).2

theorem skip_none (t : Str) (h : ∀ b, t.head? = some b → isBlank b = false) : skip t = t := skip_blanks 0 t h

/-- A line `key = value`, without its end. -/
def pairLine (indent : Nat) (k : Str) (v : Scalar) : Str :=
  List.replicate (2 * indent) 32 ++ keyText k ++ bs " = " ++ scalarText v

theorem pairText_eq (indent : Nat) (k : Str) (v : Scalar) : pairText indent k v = pairLine indent k v ++ [10] := rfl

theorem scalar_head (v : Scalar) : ∀ b, (scalarText v).head? = some b → isBlank b = false := by
  cases v with
  | str s => intro b hb; simp [scalarText, quoted] at hb; subst hb; rfl
  | bool b => cases b <;> decide +kernel
  | int n =>
    intro b hb
    have := int_bytes n b (List.mem_of_mem_head? hb)
    rcases this with rfl | h
    · rfl
    · unfold isBlank
      have h1 : b ≠ 32 := by rintro rfl; revert h; decide
      have h2 : b ≠ 9 := by rintro rfl; revert h; decide
      simp [h1, h2]

theorem line_pair' (strict : Bool) (indent : Nat) (k : Str) (h0 : k ≠ []) (hk : k.all bare = true) (v : Scalar) :
    line strict (pairLine indent k v) = match value strict (scalarText v) with
      | none => none
      | some (v, e) => if ends e then some (.pair k v) else none := by
  obtain ⟨b, k', rfl⟩ := List.exists_cons_of_ne_nil h0
  have hall : ∀ x ∈ b :: k', bare x = true := by simpa using hk
  have hb := bare_not (hall b (by simp))
  have hkt : keyText (b :: k') = b :: k' := by unfold keyText; rw [bare_eq, if_pos hk]
  have heq : bs " = " = [32, 61, 32] := by decide +kernel
  have hkey := key_bare strict (b :: k') h0 hk (bs " = " ++ scalarText v) (by
    rw [heq]; intro x hx; simp at hx; subst hx; decide)
  unfold line pairLine
  rw [List.append_assoc, List.append_assoc, skip_blanks _ _ (by
    rw [hkt]; intro x hx; simp at hx; subst hx; unfold isBlank; simp [hb])]
  rw [hkt] 
  simp only [List.cons_append, hb, if_false]
  simp only [List.cons_append] at hkey
  rw [hkey]
  rw [heq]
  have hs : skip ([32, 61, 32] ++ scalarText v) = 61 :: 32 :: scalarText v := by rfl
  have hs2 : skip (32 :: scalarText v) = scalarText v := by
    have := skip_blanks 1 (scalarText v) (scalar_head v)
    exact this
  simp only [hs]
  rw [if_pos trivial, hs2]
  cases value strict (scalarText v) with
  | none => rfl
  | some p => rfl

theorem line_pair (strict : Bool) (indent : Nat) (k : Str) (h0 : k ≠ []) (hk : k.all bare = true) (v : Scalar)
    (hv : Sound strict v) : line strict (pairLine indent k v) = some (.pair k (toValue v)) := by
  rw [line_pair' strict indent k h0 hk v, value_text strict v hv]
  rfl

end Argo.Toml
