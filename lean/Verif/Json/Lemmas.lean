import Verif.Json.Model

set_option autoImplicit false

/-! # Reading what was printed -/

namespace Argo.Json

open Argo
open Argo.Signalk (Str bs)

/-! ## Characters -/

theorem toByteArray_inj {a b : List Byte} (h : a.toByteArray = b.toByteArray) : a = b := by
  have := congrArg (fun x : ByteArray => x.data.toList) h
  simpa using this

/-- The first character of an encoded character is that character. -/
theorem firstChar_encode (c : Char) (r : List Byte) : firstChar (String.utf8EncodeChar c ++ r) = some c := by
  unfold firstChar
  rw [List.toByteArray_append]
  exact ByteArray.utf8DecodeChar?_utf8EncodeChar_append

/-- A first character's encoding begins the bytes. -/
theorem firstChar_some {l : List Byte} {c : Char} (h : firstChar l = some c) :
    ∃ r, l = String.utf8EncodeChar c ++ r := by
  unfold firstChar at h
  obtain ⟨x, hx⟩ := ByteArray.exists_of_utf8DecodeChar?_eq_some h
  refine ⟨x.data.toList, toByteArray_inj ?_⟩
  rw [List.toByteArray_append, hx]
  congr 1
  ext1
  simp

theorem firstChar_iff {l : List Byte} {c : Char} :
    firstChar l = some c ↔ ∃ r, l = String.utf8EncodeChar c ++ r :=
  ⟨firstChar_some, fun ⟨r, h⟩ => by rw [h]; exact firstChar_encode c r⟩

theorem encode_length (c : Char) : (String.utf8EncodeChar c).length = c.utf8Size := String.length_utf8EncodeChar c

theorem firstChar_split {l : List Byte} {c : Char} (h : firstChar l = some c) :
    l.take c.utf8Size = String.utf8EncodeChar c ∧ l = String.utf8EncodeChar c ++ l.drop c.utf8Size := by
  obtain ⟨r, rfl⟩ := firstChar_some h
  rw [← encode_length]
  simp

theorem encode_ascii {b : Byte} (hb : b.toNat < 0x80) : String.utf8EncodeChar (Char.ofNat b.toNat) = [b] := by
  have key : ∀ b : Fin 256, b.val < 128 → String.utf8EncodeChar (Char.ofNat b.val) = [UInt8.ofNat b.val] := by
    decide +kernel
  have := key ⟨b.toNat, b.toNat_lt⟩ hb
  rw [this]
  simp

theorem firstChar_ascii {b : Byte} (hb : b.toNat < 0x80) (r : List Byte) :
    firstChar (b :: r) = some (Char.ofNat b.toNat) ∧ (Char.ofNat b.toNat).utf8Size = 1 := by
  have h := encode_ascii hb
  refine ⟨?_, ?_⟩
  · have := firstChar_encode (Char.ofNat b.toNat) r
    rwa [h] at this
  · rw [← encode_length, h]; rfl

/-! ## More steps do not change the result -/

theorem stringTail_mono {n m : Nat} (hnm : n ≤ m) {l : List Byte} {x : List Char × List Byte}
    (h : stringTail n l = some x) : stringTail m l = some x := by
  induction n generalizing m l x with
  | zero => cases h
  | succ n ih =>
    obtain ⟨m, rfl⟩ : ∃ k, m = k + 1 := ⟨m - 1, by omega⟩
    cases l with
    | nil => simp [stringTail] at h
    | cons b r =>
      simp only [stringTail] at h ⊢
      split
      · rename_i hb; rw [if_pos hb] at h; exact h
      · rename_i hb
        rw [if_neg hb] at h
        cases hc : character (b :: r) with
        | none => rw [hc] at h; cases h
        | some y =>
          rw [hc] at h
          simp only at h ⊢
          cases hs : stringTail n y.2 with
          | none => rw [hs] at h; cases h
          | some z =>
            rw [hs] at h
            rw [ih (by omega) hs]
            exact h

theorem mono_step (n : Nat) :
    (∀ l x, value n l = some x → value (n + 1) l = some x) ∧
    (∀ l x, elements n l = some x → elements (n + 1) l = some x) ∧
    (∀ l x, members n l = some x → members (n + 1) l = some x) := by
  induction n with
  | zero => exact ⟨fun _ _ h => by simp [value] at h, fun _ _ h => by simp [elements] at h, fun _ _ h => by simp [members] at h⟩
  | succ n ih =>
    obtain ⟨iv, ie, im⟩ := ih
    refine ⟨fun l x h => ?_, fun l x h => ?_, fun l x h => ?_⟩
    · rw [value] at h ⊢
      cases hw : skipWs l with
      | nil => rw [hw] at h; cases h
      | cons b r =>
        rw [hw] at h
        simp only at h ⊢
        by_cases h1 : b = 34
        · rw [if_pos h1] at h ⊢
          cases hs : stringTail n r with
          | none => rw [hs] at h; cases h
          | some y => rw [hs] at h; rw [stringTail_mono (Nat.le_succ n) hs]; exact h
        rw [if_neg h1] at h ⊢
        by_cases h2 : b = 91
        · rw [if_pos h2] at h ⊢
          cases hw2 : skipWs r with
          | nil => rw [hw2] at h; cases h
          | cons c r' =>
            rw [hw2] at h
            simp only at h ⊢
            by_cases h3 : c = 93
            · rw [if_pos h3] at h ⊢; exact h
            rw [if_neg h3] at h ⊢
            cases he : elements n (c :: r') with
            | none => rw [he] at h; cases h
            | some y => rw [he] at h; rw [ie _ _ he]; exact h
        rw [if_neg h2] at h ⊢
        by_cases h4 : b = 123
        · rw [if_pos h4] at h ⊢
          cases hw2 : skipWs r with
          | nil => rw [hw2] at h; cases h
          | cons c r' =>
            rw [hw2] at h
            simp only at h ⊢
            by_cases h3 : c = 125
            · rw [if_pos h3] at h ⊢; exact h
            rw [if_neg h3] at h ⊢
            cases he : members n (c :: r') with
            | none => rw [he] at h; cases h
            | some y => rw [he] at h; rw [im _ _ he]; exact h
        rw [if_neg h4] at h ⊢
        exact h
    · rw [elements] at h ⊢
      cases hv : value n l with
      | none => rw [hv] at h; cases h
      | some y =>
        rw [hv] at h
        rw [iv _ _ hv]
        simp only at h ⊢
        cases hw : skipWs y.2 with
        | nil => rw [hw] at h; cases h
        | cons c r' =>
          rw [hw] at h
          simp only at h ⊢
          by_cases h1 : c = 93
          · rw [if_pos h1] at h ⊢; exact h
          rw [if_neg h1] at h ⊢
          by_cases h2 : c = 44
          · rw [if_pos h2] at h ⊢
            cases he : elements n r' with
            | none => rw [he] at h; cases h
            | some z => rw [he] at h; rw [ie _ _ he]; exact h
          rw [if_neg h2] at h; cases h
    · rw [members] at h ⊢
      cases hw : skipWs l with
      | nil => rw [hw] at h; cases h
      | cons q r =>
        rw [hw] at h
        simp only at h ⊢
        by_cases hq : q = 34
        · rw [if_pos hq] at h ⊢
          cases hs : stringTail n r with
          | none => rw [hs] at h; cases h
          | some y =>
            rw [hs] at h
            rw [stringTail_mono (Nat.le_succ n) hs]
            simp only at h ⊢
            cases hw1 : skipWs y.2 with
            | nil => rw [hw1] at h; cases h
            | cons c r2 =>
              rw [hw1] at h
              simp only at h ⊢
              by_cases hc : c = 58
              · rw [if_pos hc] at h ⊢
                cases hv : value n r2 with
                | none => rw [hv] at h; cases h
                | some z =>
                  rw [hv] at h
                  rw [iv _ _ hv]
                  simp only at h ⊢
                  cases hw3 : skipWs z.2 with
                  | nil => rw [hw3] at h; cases h
                  | cons d r4 =>
                    rw [hw3] at h
                    simp only at h ⊢
                    by_cases h1 : d = 125
                    · rw [if_pos h1] at h ⊢; exact h
                    rw [if_neg h1] at h ⊢
                    by_cases h2 : d = 44
                    · rw [if_pos h2] at h ⊢
                      cases he : members n r4 with
                      | none => rw [he] at h; cases h
                      | some w => rw [he] at h; rw [im _ _ he]; exact h
                    rw [if_neg h2] at h; cases h
              · rw [if_neg hc] at h; cases h
        · rw [if_neg hq] at h; cases h

theorem value_mono {n m : Nat} (hnm : n ≤ m) {l : List Byte} {x : Json × List Byte}
    (h : value n l = some x) : value m l = some x := by
  induction hnm with
  | refl => exact h
  | step _ ih => exact (mono_step _).1 _ _ ih

theorem elements_mono {n m : Nat} (hnm : n ≤ m) {l : List Byte} {x : List Json × List Byte}
    (h : elements n l = some x) : elements m l = some x := by
  induction hnm with
  | refl => exact h
  | step _ ih => exact (mono_step _).2.1 _ _ ih

theorem members_mono {n m : Nat} (hnm : n ≤ m) {l : List Byte} {x : List (List Char × Json) × List Byte}
    (h : members n l = some x) : members m l = some x := by
  induction hnm with
  | refl => exact h
  | step _ ih => exact (mono_step _).2.2 _ _ ih

/-- A text has one value only. -/
theorem reads_unique {l : List Byte} {v v' : Json} (h : Reads l v) (h' : Reads l v') : v = v' := by
  obtain ⟨n, r, h, _⟩ := h
  obtain ⟨m, r', h', _⟩ := h'
  have a := value_mono (Nat.le_max_left n m) h
  have b := value_mono (Nat.le_max_right n m) h'
  rw [a] at b
  cases b; rfl

/-! ## Strings -/

theorem hex_digit (n : Nat) (h : n < 16) : hexVal (hexLow n) = some n := by
  have key : ∀ n : Fin 16, hexVal (hexLow n.val) = some n.val := by decide +kernel
  exact key ⟨n, h⟩

theorem character_esc (newer : Bool) {b : Byte} (hb : b.toNat < 0x80) (r : List Byte) :
    character (escByte newer b ++ r) = some (Char.ofNat b.toNat, r) ∧ (escByte newer b ++ r).head? ≠ some 34 := by
  unfold escByte
  by_cases h1 : b = 34 ∨ b = 92
  · rw [if_pos h1]
    rcases h1 with rfl | rfl <;> exact ⟨rfl, by simp⟩
  rw [if_neg h1]
  by_cases h2 : b = 10
  · rw [if_pos h2]; subst h2; exact ⟨rfl, by simp⟩
  rw [if_neg h2]
  by_cases h3 : b = 13
  · rw [if_pos h3]; subst h3; exact ⟨rfl, by simp⟩
  rw [if_neg h3]
  by_cases h4 : b = 9
  · rw [if_pos h4]; subst h4; exact ⟨rfl, by simp⟩
  rw [if_neg h4]
  by_cases h5 : newer = true ∧ b = 8
  · rw [if_pos h5]; rw [h5.2]; exact ⟨rfl, by simp⟩
  rw [if_neg h5]
  by_cases h6 : newer = true ∧ b = 12
  · rw [if_pos h6]; rw [h6.2]; exact ⟨rfl, by simp⟩
  rw [if_neg h6]
  by_cases h7 : b.toNat < 0x20 ∨ b = 60 ∨ b = 62 ∨ b = 38
  · rw [if_pos h7]
    refine ⟨?_, by simp⟩
    have e : (0 * 16 + 0) * 16 + b.toNat / 16 < 16 := by omega
    have hu : hex4 (48 :: 48 :: hexLow (b.toNat / 16) :: hexLow (b.toNat % 16) :: r) = some (b.toNat, r) := by
      simp only [hex4]
      rw [hex_digit _ (by omega), hex_digit _ (by omega)]
      show some (((0 * 16 + 0) * 16 + b.toNat / 16) * 16 + b.toNat % 16, r) = _
      congr 2; omega
    show unicode (48 :: 48 :: hexLow (b.toNat / 16) :: hexLow (b.toNat % 16) :: r) = _
    unfold unicode
    rw [hu]
    simp only
    rw [if_neg (by omega), if_neg (by omega)]
  rw [if_neg h7]
  have hne : b ≠ 92 := fun hc => h1 (Or.inr hc)
  have hnq : b ≠ 34 := fun hc => h1 (Or.inl hc)
  refine ⟨?_, by simpa using hnq⟩
  show character (b :: r) = _
  unfold character
  simp only
  rw [if_neg hne, if_neg (by omega)]
  obtain ⟨a1, a2⟩ := firstChar_ascii hb r
  rw [a1]
  simp only [a2]
  rfl

theorem high_head {b : Byte} {r : List Byte} (hb : ¬ b.toNat < 0x80) {c : Char} (h : firstChar (b :: r) = some c) :
    character (b :: r) = some (c, (b :: r).drop c.utf8Size) := by
  unfold character
  simp only
  rw [if_neg (by rintro rfl; exact hb (by decide)), if_neg (by omega), h]

theorem u_head {l : List Byte} (h : l.head? = some 92) (x : List Byte) : ((l ++ x).head? ≠ some 34) = True := by
  cases l with
  | nil => cases h
  | cons b l => cases h; simp

theorem string_read (newer : Bool) : ∀ (n : Nat) (s : List Byte), s.length ≤ n → ∀ r : List Byte,
    ∃ k, stringTail k (encChars newer n s ++ 34 :: r) = some (scalars n s, r) := by
  intro n
  induction n with
  | zero =>
    intro s hs r
    exact ⟨1, rfl⟩
  | succ n ih =>
    intro s hs r
    cases s with
    | nil => exact ⟨1, rfl⟩
    | cons b t =>
      have step : ∀ (e : List Byte) (c : Char) (rest : List Byte), rest.length ≤ n → e ≠ [] →
          (∀ x, character (e ++ x) = some (c, x) ∧ (e ++ x).head? ≠ some 34) →
          ∃ k, stringTail k (e ++ encChars newer n rest ++ 34 :: r) = some (c :: scalars n rest, r) := by
        intro e c rest hr hne hch
        obtain ⟨k, hk⟩ := ih rest hr r
        refine ⟨k + 1, ?_⟩
        obtain ⟨c1, c2⟩ := hch (encChars newer n rest ++ 34 :: r)
        rw [List.append_assoc]
        cases e with
        | nil => exact absurd rfl hne
        | cons y e =>
          simp only [List.cons_append, stringTail]
          rw [if_neg (by simpa using c2)]
          simp only [List.cons_append] at c1
          rw [c1]
          simp only
          rw [hk]
      simp only [List.length_cons] at hs
      unfold encChars scalars
      by_cases hb : b.toNat < 0x80
      · obtain ⟨a1, a2⟩ := firstChar_ascii hb t
        rw [if_pos hb, a1]
        simp only [a2, List.drop_succ_cons, List.drop_zero]
        refine step _ _ _ (by omega) ?_ (fun x => character_esc newer hb x)
        unfold escByte
        repeat' split
        all_goals simp
      · rw [if_neg hb]
        cases hf : firstChar (b :: t) with
        | none =>
          simp only
          exact step (bs "\\ufffd") _ t (by omega) (by decide +kernel) (fun x => ⟨rfl, by rw [u_head (by decide +kernel)]; trivial⟩)
        | some c =>
          simp only
          obtain ⟨s1, s2⟩ := firstChar_split hf
          have hpos := c.utf8Size_pos
          have hlen : ((b :: t).drop c.utf8Size).length ≤ n := by
            rw [List.length_drop, List.length_cons]; omega
          by_cases h1 : c = Char.ofNat 0x2028
          · rw [if_pos h1]
            exact step (bs "\\u2028") _ _ hlen (by decide +kernel) (fun x => ⟨by rw [h1]; rfl, by rw [u_head (by decide +kernel)]; trivial⟩)
          rw [if_neg h1]
          by_cases h2 : c = Char.ofNat 0x2029
          · rw [if_pos h2]
            exact step (bs "\\u2029") _ _ hlen (by decide +kernel) (fun x => ⟨by rw [h2]; rfl, by rw [u_head (by decide +kernel)]; trivial⟩)
          rw [if_neg h2, s1]
          have hhead : ∃ e, String.utf8EncodeChar c = b :: e := by
            cases he : String.utf8EncodeChar c with
            | nil => have := encode_length c; rw [he] at this; simp at this; omega
            | cons y e =>
              rw [he] at s2
              simp only [List.cons_append, List.cons.injEq] at s2
              exact ⟨e, by rw [s2.1]⟩
          obtain ⟨e, he⟩ := hhead
          refine step _ _ _ hlen (by rw [he]; simp) (fun x => ⟨?_, ?_⟩)
          · have hfx : firstChar (b :: (e ++ x)) = some c := by
              have := firstChar_encode c x; rwa [he] at this
            have := high_head hb hfx
            rw [he]
            simp only [List.cons_append]
            rw [this, ← encode_length, he]
            simp
          · rw [he]
            simp only [List.cons_append, List.head?_cons, ne_eq, Option.some.injEq]
            rintro rfl
            exact hb (by decide)

end Argo.Json
