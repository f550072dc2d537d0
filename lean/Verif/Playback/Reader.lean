import Verif.Json.Fuel

set_option autoImplicit false

/-!
# `encoding/json.Unmarshal`: which texts are accepted and what is in them

The grammar is that of RFC 8259 (`Json/Spec.lean`), except in strings: the scanner takes any byte that is not a control character,
a quotation mark or a backslash, and any `\\u` with four hexadecimal digits; `unquote` then replaces what is not the encoding of a
character, and surrogates without a partner, by U+FFFD.
-/

namespace Argo.Playback

open Argo
open Argo.Json (Json skipWs isWs number name hex4 firstChar skip_le hex4_lt number_lt name_lt)

/-- What follows `\\u` (`getu4`, utf16.DecodeRune). -/
def unicode (bs : List Byte) : Option (Char × List Byte) :=
  match hex4 bs with
  | none => none
  | some (u, r) =>
    if 0xD800 ≤ u ∧ u < 0xE000 then
      match r with
      | x :: y :: r' =>
        if x = 92 ∧ y = 117 then
          match hex4 r' with
          | some (v, r'') =>
            if u < 0xDC00 ∧ 0xDC00 ≤ v ∧ v < 0xE000 then
              some (Char.ofNat (0x10000 + (u - 0xD800) * 0x400 + (v - 0xDC00)), r'')
            else some (Char.ofNat 0xFFFD, r)
          | none => some (Char.ofNat 0xFFFD, r)
        else some (Char.ofNat 0xFFFD, r)
      | _ => some (Char.ofNat 0xFFFD, r)
    else some (Char.ofNat u, r)

/-- One character of a string, escaped or not. -/
def character : List Byte → Option (Char × List Byte)
  | [] => none
  | b :: r =>
    if b = 92 then
      match r with
      | [] => none
      | e :: r' =>
        if e = 34 then some ('"', r')
        else if e = 92 then some ('\\', r')
        else if e = 47 then some ('/', r')
        else if e = 98 then some (Char.ofNat 8, r')
        else if e = 102 then some (Char.ofNat 12, r')
        else if e = 110 then some ('\n', r')
        else if e = 114 then some ('\r', r')
        else if e = 116 then some ('\t', r')
        else if e = 117 then unicode r'
        else none
    else if b.toNat < 0x20 then none
    else
      match firstChar (b :: r) with
      | some c => some (c, (b :: r).drop c.utf8Size)
      | none => some (Char.ofNat 0xFFFD, r)

/-- The characters up to the closing quotation mark.  The first argument bounds the steps; the length of the
text is enough. -/
def stringTail : Nat → List Byte → Option (List Char × List Byte)
  | 0, _ => none
  | n + 1, bs =>
    match bs with
    | [] => none
    | b :: r =>
      if b = 34 then some ([], r)
      else
        match character (b :: r) with
        | none => none
        | some (c, r') =>
          match stringTail n r' with
          | none => none
          | some (cs, r'') => some (c :: cs, r'')

/-! ## Values (sections 3 to 5) -/

/-- The literal name, if the bytes begin with it. -/
def name (lit : List Byte) (bs : List Byte) : Option (List Byte) :=
  if bs.take lit.length = lit then some (bs.drop lit.length) else none

mutual

/-- A value, whitespace before it allowed. -/
def value : Nat → List Byte → Option (Json × List Byte)
  | 0, _ => none
  | n + 1, bs =>
    match skipWs bs with
    | [] => none
    | b :: r =>
      if b = 34 then
        match stringTail n r with
        | some (s, r') => some (.str s, r')
        | none => none
      else if b = 91 then
        match skipWs r with
        | [] => none
        | c :: r' =>
          if c = 93 then some (.arr [], r')
          else
            match elements n (c :: r') with
            | some (l, r'') => some (.arr l, r'')
            | none => none
      else if b = 123 then
        match skipWs r with
        | [] => none
        | c :: r' =>
          if c = 125 then some (.obj [], r')
          else
            match members n (c :: r') with
            | some (l, r'') => some (.obj l, r'')
            | none => none
      else if b = 116 then
        match name [116, 114, 117, 101] (b :: r) with
        | some r' => some (.bool true, r')
        | none => none
      else if b = 102 then
        match name [102, 97, 108, 115, 101] (b :: r) with
        | some r' => some (.bool false, r')
        | none => none
      else if b = 110 then
        match name [110, 117, 108, 108] (b :: r) with
        | some r' => some (.null, r')
        | none => none
      else
        match number (b :: r) with
        | some (t, r') => some (.num t, r')
        | none => none

/-- `value *( value-separator value ) end-array` -/
def elements : Nat → List Byte → Option (List Json × List Byte)
  | 0, _ => none
  | n + 1, bs =>
    match value n bs with
    | none => none
    | some (v, r) =>
      match skipWs r with
      | [] => none
      | c :: r' =>
        if c = 93 then some ([v], r')
        else if c = 44 then
          match elements n r' with
          | some (l, r'') => some (v :: l, r'')
          | none => none
        else none

/-- `member *( value-separator member ) end-object` -/
def members : Nat → List Byte → Option (List (List Char × Json) × List Byte)
  | 0, _ => none
  | n + 1, bs =>
    match skipWs bs with
    | [] => none
    | q :: r =>
      if q = 34 then
        match stringTail n r with
        | none => none
        | some (k, r1) =>
          match skipWs r1 with
          | [] => none
          | c :: r2 =>
            if c = 58 then
              match value n r2 with
              | none => none
              | some (v, r3) =>
                match skipWs r3 with
                | [] => none
                | d :: r4 =>
                  if d = 125 then some ([(k, v)], r4)
                  else if d = 44 then
                    match members n r4 with
                    | some (l, r5) => some ((k, v) :: l, r5)
                    | none => none
                  else none
            else none
      else none

end


/-! ## Steps -/

theorem stringTail_mono {n m : Nat} (hnm : n ≤ m) {l : List Byte} {x : List Char × List Byte}
    (h : stringTail n l = some x) : stringTail m l = some x := by
  induction n generalizing m l x with
  | zero => cases h
  | succ n ih =>
    obtain ⟨m, rfl⟩ : ∃ k, m = k + 1 := ⟨m - 1, by omega⟩
    cases l with
    | nil => simp [stringTail] at h
    | cons b r =>
      simp only [stringTail] at h ⊢
      split
      · rename_i hb; rw [if_pos hb] at h; exact h
      · rename_i hb
        rw [if_neg hb] at h
        cases hc : character (b :: r) with
        | none => rw [hc] at h; cases h
        | some y =>
          rw [hc] at h
          simp only at h ⊢
          cases hs : stringTail n y.2 with
          | none => rw [hs] at h; cases h
          | some z =>
            rw [hs] at h
            rw [ih (by omega) hs]
            exact h

theorem mono_step (n : Nat) :
    (∀ l x, value n l = some x → value (n + 1) l = some x) ∧
    (∀ l x, elements n l = some x → elements (n + 1) l = some x) ∧
    (∀ l x, members n l = some x → members (n + 1) l = some x) := by
  induction n with
  | zero => exact ⟨fun _ _ h => by simp [value] at h, fun _ _ h => by simp [elements] at h, fun _ _ h => by simp [members] at h⟩
  | succ n ih =>
    obtain ⟨iv, ie, im⟩ := ih
    refine ⟨fun l x h => ?_, fun l x h => ?_, fun l x h => ?_⟩
    · rw [value] at h ⊢
      cases hw : skipWs l with
      | nil => rw [hw] at h; cases h
      | cons b r =>
        rw [hw] at h
        simp only at h ⊢
        by_cases h1 : b = 34
        · rw [if_pos h1] at h ⊢
          cases hs : stringTail n r with
          | none => rw [hs] at h; cases h
          | some y => rw [hs] at h; rw [stringTail_mono (Nat.le_succ n) hs]; exact h
        rw [if_neg h1] at h ⊢
        by_cases h2 : b = 91
        · rw [if_pos h2] at h ⊢
          cases hw2 : skipWs r with
          | nil => rw [hw2] at h; cases h
          | cons c r' =>
            rw [hw2] at h
            simp only at h ⊢
            by_cases h3 : c = 93
            · rw [if_pos h3] at h ⊢; exact h
            rw [if_neg h3] at h ⊢
            cases he : elements n (c :: r') with
            | none => rw [he] at h; cases h
            | some y => rw [he] at h; rw [ie _ _ he]; exact h
        rw [if_neg h2] at h ⊢
        by_cases h4 : b = 123
        · rw [if_pos h4] at h ⊢
          cases hw2 : skipWs r with
          | nil => rw [hw2] at h; cases h
          | cons c r' =>
            rw [hw2] at h
            simp only at h ⊢
            by_cases h3 : c = 125
            · rw [if_pos h3] at h ⊢; exact h
            rw [if_neg h3] at h ⊢
            cases he : members n (c :: r') with
            | none => rw [he] at h; cases h
            | some y => rw [he] at h; rw [im _ _ he]; exact h
        rw [if_neg h4] at h ⊢
        exact h
    · rw [elements] at h ⊢
      cases hv : value n l with
      | none => rw [hv] at h; cases h
      | some y =>
        rw [hv] at h
        rw [iv _ _ hv]
        simp only at h ⊢
        cases hw : skipWs y.2 with
        | nil => rw [hw] at h; cases h
        | cons c r' =>
          rw [hw] at h
          simp only at h ⊢
          by_cases h1 : c = 93
          · rw [if_pos h1] at h ⊢; exact h
          rw [if_neg h1] at h ⊢
          by_cases h2 : c = 44
          · rw [if_pos h2] at h ⊢
            cases he : elements n r' with
            | none => rw [he] at h; cases h
            | some z => rw [he] at h; rw [ie _ _ he]; exact h
          rw [if_neg h2] at h; cases h
    · rw [members] at h ⊢
      cases hw : skipWs l with
      | nil => rw [hw] at h; cases h
      | cons q r =>
        rw [hw] at h
        simp only at h ⊢
        by_cases hq : q = 34
        · rw [if_pos hq] at h ⊢
          cases hs : stringTail n r with
          | none => rw [hs] at h; cases h
          | some y =>
            rw [hs] at h
            rw [stringTail_mono (Nat.le_succ n) hs]
            simp only at h ⊢
            cases hw1 : skipWs y.2 with
            | nil => rw [hw1] at h; cases h
            | cons c r2 =>
              rw [hw1] at h
              simp only at h ⊢
              by_cases hc : c = 58
              · rw [if_pos hc] at h ⊢
                cases hv : value n r2 with
                | none => rw [hv] at h; cases h
                | some z =>
                  rw [hv] at h
                  rw [iv _ _ hv]
                  simp only at h ⊢
                  cases hw3 : skipWs z.2 with
                  | nil => rw [hw3] at h; cases h
                  | cons d r4 =>
                    rw [hw3] at h
                    simp only at h ⊢
                    by_cases h1 : d = 125
                    · rw [if_pos h1] at h ⊢; exact h
                    rw [if_neg h1] at h ⊢
                    by_cases h2 : d = 44
                    · rw [if_pos h2] at h ⊢
                      cases he : members n r4 with
                      | none => rw [he] at h; cases h
                      | some w => rw [he] at h; rw [im _ _ he]; exact h
                    rw [if_neg h2] at h; cases h
              · rw [if_neg hc] at h; cases h
        · rw [if_neg hq] at h; cases h

theorem value_mono {n m : Nat} (hnm : n ≤ m) {l : List Byte} {x : Json × List Byte}
    (h : value n l = some x) : value m l = some x := by
  induction hnm with
  | refl => exact h
  | step _ ih => exact (mono_step _).1 _ _ ih

theorem elements_mono {n m : Nat} (hnm : n ≤ m) {l : List Byte} {x : List Json × List Byte}
    (h : elements n l = some x) : elements m l = some x := by
  induction hnm with
  | refl => exact h
  | step _ ih => exact (mono_step _).2.1 _ _ ih

theorem members_mono {n m : Nat} (hnm : n ≤ m) {l : List Byte} {x : List (List Char × Json) × List Byte}
    (h : members n l = some x) : members m l = some x := by
  induction hnm with
  | refl => exact h
  | step _ ih => exact (mono_step _).2.2 _ _ ih

theorem unicode_lt {l r : List Byte} {c : Char} (h : unicode l = some (c, r)) : r.length < l.length := by
  unfold unicode at h
  split at h
  · cases h
  · next u r1 h1 =>
    have := hex4_lt h1
    have fin : ∀ {d : Char}, some (d, r1) = some (c, r) → r.length < l.length := by
      intro d h
      have h := congrArg Prod.snd (Option.some.inj h)
      simp only at h
      rw [← h]; exact this
    split at h
    · split at h
      · split at h
        · split at h
          · next v r2 h2 =>
            have := hex4_lt h2
            split at h
            · have h := congrArg Prod.snd (Option.some.inj h)
              simp only at h
              rw [← h]; simp at *; omega
            · exact fin h
          · exact fin h
        · exact fin h
      · exact fin h
    · exact fin h

theorem character_lt {l r : List Byte} {c : Char} (h : character l = some (c, r)) : r.length < l.length := by
  unfold character at h
  split at h
  · cases h
  · split at h
    · split at h
      · cases h
      · repeat' split at h
        all_goals first
          | (cases h; simp; omega)
          | (have := unicode_lt h; simp; omega)
          | cases h
    · split at h
      · cases h
      · split at h
        · next c' hc =>
          cases h
          have := c.utf8Size_pos
          simp; omega
        · have h := congrArg Prod.snd (Option.some.inj h)
          simp only at h
          rw [← h]; simp

theorem stringTail_lt {n : Nat} : ∀ {l r : List Byte} {s : List Char}, stringTail n l = some (s, r) →
    r.length < l.length ∧ stringTail l.length l = some (s, r) := by
  induction n with
  | zero => intro l r s h; cases h
  | succ n ih =>
    intro l r s h
    cases l with
    | nil => simp [stringTail] at h
    | cons b l =>
      rw [stringTail] at h
      rw [List.length_cons, stringTail]
      split at h
      · next hb =>
        cases h
        rw [if_pos hb]
        exact ⟨by simp, rfl⟩
      · next hb =>
        rw [if_neg hb]
        cases hc : character (b :: l) with
        | none => rw [hc] at h; cases h
        | some x =>
          obtain ⟨c, r1⟩ := x
          rw [hc] at h
          simp only at h
          have h1 := character_lt hc
          rw [List.length_cons] at h1
          cases ht : stringTail n r1 with
          | none => rw [ht] at h; cases h
          | some y =>
            obtain ⟨cs, r2⟩ := y
            rw [ht] at h
            cases h
            obtain ⟨g1, g2⟩ := ih ht
            refine ⟨by omega, ?_⟩
            simp only
            rw [stringTail_mono (show r1.length ≤ l.length by omega) g2]

theorem fuel_step (n : Nat) :
    (∀ l v r, value n l = some (v, r) → r.length < l.length ∧ value (2 * l.length) l = some (v, r)) ∧
    (∀ l v r, elements n l = some (v, r) → r.length < l.length ∧ elements (2 * l.length + 1) l = some (v, r)) ∧
    (∀ l v r, members n l = some (v, r) → r.length < l.length ∧ members (2 * l.length + 1) l = some (v, r)) := by
  induction n with
  | zero => exact ⟨fun _ _ _ h => (by cases h), fun _ _ _ h => (by cases h), fun _ _ _ h => (by cases h)⟩
  | succ n ih =>
    obtain ⟨iv, ie, im⟩ := ih
    have hv : ∀ l v r, value (n + 1) l = some (v, r) → r.length < l.length ∧ value (2 * l.length) l = some (v, r) := by
      intro l v r h
      rw [value] at h
      have hsk := skip_le l
      cases hs : skipWs l with
      | nil => rw [hs] at h; cases h
      | cons b l1 =>
        rw [hs] at h hsk
        simp only at h
        rw [List.length_cons] at hsk
        obtain ⟨k, hk⟩ : ∃ k, 2 * l.length = k + 2 := ⟨2 * l.length - 2, by omega⟩
        rw [hk, value, hs]
        simp only
        split at h
        · next hb =>
          rw [if_pos hb]
          cases ht : stringTail n l1 with
          | none => rw [ht] at h; cases h
          | some x =>
            rw [ht] at h
            cases h
            obtain ⟨g1, g2⟩ := stringTail_lt ht
            rw [stringTail_mono (show l1.length ≤ k + 1 by omega) g2]
            exact ⟨by omega, rfl⟩
        · next hb =>
          rw [if_neg hb]
          split at h
          · next hb =>
            rw [if_pos hb]
            have hsk1 := skip_le l1
            cases hs1 : skipWs l1 with
            | nil => rw [hs1] at h; cases h
            | cons c l2 =>
              rw [hs1] at h hsk1
              rw [List.length_cons] at hsk1
              simp only at h ⊢
              split at h
              · next hc => rw [if_pos hc]; cases h; exact ⟨by omega, rfl⟩
              · next hc =>
                rw [if_neg hc]
                cases he : elements n (c :: l2) with
                | none => rw [he] at h; cases h
                | some x =>
                  rw [he] at h
                  cases h
                  obtain ⟨g1, g2⟩ := ie _ _ _ he
                  rw [List.length_cons] at g1 g2
                  rw [elements_mono (show 2 * (l2.length + 1) + 1 ≤ k + 1 by omega) g2]
                  exact ⟨by omega, rfl⟩
          · next hb =>
            rw [if_neg hb]
            split at h
            · next hb =>
              rw [if_pos hb]
              have hsk1 := skip_le l1
              cases hs1 : skipWs l1 with
              | nil => rw [hs1] at h; cases h
              | cons c l2 =>
                rw [hs1] at h hsk1
                rw [List.length_cons] at hsk1
                simp only at h ⊢
                split at h
                · next hc => rw [if_pos hc]; cases h; exact ⟨by omega, rfl⟩
                · next hc =>
                  rw [if_neg hc]
                  cases he : members n (c :: l2) with
                  | none => rw [he] at h; cases h
                  | some x =>
                    rw [he] at h
                    cases h
                    obtain ⟨g1, g2⟩ := im _ _ _ he
                    rw [List.length_cons] at g1 g2
                    rw [members_mono (show 2 * (l2.length + 1) + 1 ≤ k + 1 by omega) g2]
                    exact ⟨by omega, rfl⟩
            · next hb =>
              rw [if_neg hb]
              refine ⟨?_, h⟩
              split at h
              · split at h
                · next hn => cases h; have := name_lt (by simp) hn; simp at this; omega
                · cases h
              · split at h
                · split at h
                  · next hn => cases h; have := name_lt (by simp) hn; simp at this; omega
                  · cases h
                · split at h
                  · split at h
                    · next hn => cases h; have := name_lt (by simp) hn; simp at this; omega
                    · cases h
                  · split at h
                    · next hn => cases h; have := number_lt hn; simp at this; omega
                    · cases h
    refine ⟨hv, ?_, ?_⟩
    · intro l v r h
      rw [elements] at h ⊢
      cases h1 : value n l with
      | none => rw [h1] at h; cases h
      | some x =>
        obtain ⟨v1, r1⟩ := x
        rw [h1] at h
        obtain ⟨g1, g2⟩ := iv _ _ _ h1
        rw [g2]
        simp only at h ⊢
        have hsk := skip_le r1
        cases hs : skipWs r1 with
        | nil => rw [hs] at h; cases h
        | cons c r2 =>
          rw [hs] at h hsk
          rw [List.length_cons] at hsk
          simp only at h ⊢
          split at h
          · next hc => rw [if_pos hc]; cases h; exact ⟨by omega, rfl⟩
          · next hc =>
            rw [if_neg hc]
            split at h
            · next hc =>
              rw [if_pos hc]
              cases h2 : elements n r2 with
              | none => rw [h2] at h; cases h
              | some x =>
                rw [h2] at h
                cases h
                obtain ⟨k1, k2⟩ := ie _ _ _ h2
                rw [elements_mono (show 2 * r2.length + 1 ≤ 2 * l.length by omega) k2]
                exact ⟨by omega, rfl⟩
            · cases h
    · intro l v r h
      rw [members] at h ⊢
      have hsk0 := skip_le l
      cases hs0 : skipWs l with
      | nil => rw [hs0] at h; cases h
      | cons q l1 =>
        rw [hs0] at h hsk0
        rw [List.length_cons] at hsk0
        simp only at h ⊢
        split at h
        · next hq =>
          rw [if_pos hq]
          cases ht : stringTail n l1 with
          | none => rw [ht] at h; cases h
          | some x =>
            obtain ⟨key, r1⟩ := x
            rw [ht] at h
            obtain ⟨g1, g2⟩ := stringTail_lt ht
            rw [stringTail_mono (show l1.length ≤ 2 * l.length by omega) g2]
            simp only at h ⊢
            have hsk1 := skip_le r1
            cases hs1 : skipWs r1 with
            | nil => rw [hs1] at h; cases h
            | cons c r2 =>
              rw [hs1] at h hsk1
              rw [List.length_cons] at hsk1
              simp only at h ⊢
              split at h
              · next hc =>
                rw [if_pos hc]
                cases h3 : value n r2 with
                | none => rw [h3] at h; cases h
                | some x =>
                  obtain ⟨v3, r3⟩ := x
                  rw [h3] at h
                  obtain ⟨k1, k2⟩ := iv _ _ _ h3
                  rw [value_mono (show 2 * r2.length ≤ 2 * l.length by omega) k2]
                  simp only at h ⊢
                  have hsk3 := skip_le r3
                  cases hs3 : skipWs r3 with
                  | nil => rw [hs3] at h; cases h
                  | cons d r4 =>
                    rw [hs3] at h hsk3
                    rw [List.length_cons] at hsk3
                    simp only at h ⊢
                    split at h
                    · next hd => rw [if_pos hd]; cases h; exact ⟨by omega, rfl⟩
                    · next hd =>
                      rw [if_neg hd]
                      split at h
                      · next hd =>
                        rw [if_pos hd]
                        cases h4 : members n r4 with
                        | none => rw [h4] at h; cases h
                        | some x =>
                          rw [h4] at h
                          cases h
                          obtain ⟨k3, k4⟩ := im _ _ _ h4
                          rw [members_mono (show 2 * r4.length + 1 ≤ 2 * l.length by omega) k4]
                          exact ⟨by omega, rfl⟩
                      · cases h
              · cases h
        · cases h

/-- What a text is read as. -/
def read (l : List Byte) : Option Json :=
  match value (2 * l.length) l with
  | some (v, r) => if skipWs r = [] then some v else none
  | none => none

/-- The number of steps allowed does not matter. -/
theorem read_iff (l : List Byte) (v : Json) : read l = some v ↔ ∃ n r, value n l = some (v, r) ∧ skipWs r = [] := by
  unfold read
  constructor
  · intro h
    cases hv : value (2 * l.length) l with
    | none => rw [hv] at h; cases h
    | some x =>
      rw [hv] at h
      simp only at h
      split at h
      · next hr => cases h; exact ⟨_, _, hv, hr⟩
      · cases h
  · rintro ⟨n, r, h, hr⟩
    rw [((fuel_step n).1 _ _ _ h).2]
    simp [hr]

end Argo.Playback
