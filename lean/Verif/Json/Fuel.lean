import Verif.Json.Lemmas

set_option autoImplicit false

/-! # The reader terminates: twice the length of the text is enough -/

namespace Argo.Json

open Argo

theorem skip_le (l : List Byte) : (skipWs l).length ≤ l.length := by
  induction l with
  | nil => simp [skipWs]
  | cons b l ih => unfold skipWs; split <;> simp <;> omega

theorem hex4_lt {l r : List Byte} {u : Nat} (h : hex4 l = some (u, r)) : r.length < l.length := by
  unfold hex4 at h
  split at h
  · split at h
    · cases h; simp; omega
    · cases h
  · cases h

theorem unicode_lt {l r : List Byte} {c : Char} (h : unicode l = some (c, r)) : r.length < l.length := by
  unfold unicode at h
  split at h
  · cases h
  · next u r1 h1 =>
    have := hex4_lt h1
    split at h
    · split at h
      · split at h
        · split at h
          · next v r2 h2 =>
            have := hex4_lt h2
            split at h
            · have h := congrArg Prod.snd (Option.some.inj h)
              simp only at h
              rw [← h]; simp at *; omega
            · cases h
          · cases h
        · cases h
      · cases h
    · split at h
      · cases h
      · have h := congrArg Prod.snd (Option.some.inj h)
        simp only at h
        rw [← h]; exact this

theorem character_lt {l r : List Byte} {c : Char} (h : character l = some (c, r)) : r.length < l.length := by
  unfold character at h
  split at h
  · cases h
  · split at h
    · split at h
      · cases h
      · repeat' split at h
        all_goals first
          | (cases h; simp; omega)
          | (have := unicode_lt h; simp; omega)
          | cases h
    · split at h
      · cases h
      · split at h
        · next c' hc =>
          cases h
          have := c.utf8Size_pos
          simp; omega
        · cases h

theorem stringTail_lt {n : Nat} : ∀ {l r : List Byte} {s : List Char}, stringTail n l = some (s, r) →
    r.length < l.length ∧ stringTail l.length l = some (s, r) := by
  induction n with
  | zero => intro l r s h; cases h
  | succ n ih =>
    intro l r s h
    cases l with
    | nil => simp [stringTail] at h
    | cons b l =>
      rw [stringTail] at h
      rw [List.length_cons, stringTail]
      split at h
      · next hb =>
        cases h
        rw [if_pos hb]
        exact ⟨by simp, rfl⟩
      · next hb =>
        rw [if_neg hb]
        cases hc : character (b :: l) with
        | none => rw [hc] at h; cases h
        | some x =>
          obtain ⟨c, r1⟩ := x
          rw [hc] at h
          simp only at h
          have h1 := character_lt hc
          rw [List.length_cons] at h1
          cases ht : stringTail n r1 with
          | none => rw [ht] at h; cases h
          | some y =>
            obtain ⟨cs, r2⟩ := y
            rw [ht] at h
            cases h
            obtain ⟨g1, g2⟩ := ih ht
            refine ⟨by omega, ?_⟩
            simp only
            rw [stringTail_mono (show r1.length ≤ l.length by omega) g2]

theorem digits_le (l : List Byte) : (digits l).2.length ≤ l.length := by
  unfold digits
  exact (List.dropWhile_sublist _).length_le

theorem intPart_lt {l i r : List Byte} (h : intPart l = some (i, r)) : r.length < l.length := by
  unfold intPart at h
  split at h
  · next b l =>
    have := digits_le l
    split at h
    · cases h; simp
    · split at h
      · cases h; simp; omega
      · cases h
  · cases h

theorem fracPart_le {l i r : List Byte} (h : fracPart l = some (i, r)) : r.length ≤ l.length := by
  unfold fracPart at h
  split at h
  · next b l =>
    have := digits_le l
    split at h
    · split at h
      · cases h
      · cases h; simp; omega
    · cases h; simp
  · cases h; simp

theorem expPart_le {l i r : List Byte} (h : expPart l = some (i, r)) : r.length ≤ l.length := by
  unfold expPart at h
  split at h
  · next b l =>
    have := digits_le l
    split at h
    · split at h
      · next s l' =>
        have := digits_le l'
        repeat' split at h
        all_goals first
          | (cases h; simp at *; omega)
          | cases h
      · cases h
    · cases h; simp
  · cases h; simp

theorem number_lt {l t r : List Byte} (h : number l = some (t, r)) : r.length < l.length := by
  have key : ∀ (m x : List Byte), x.length ≤ l.length →
      (match intPart x with
        | none => none
        | some (i, x) =>
          match fracPart x with
          | none => none
          | some (f, x) =>
            match expPart x with
            | none => none
            | some (e, x) => some (m ++ i ++ f ++ e, x)) = some (t, r) → r.length < l.length := by
    intro m x hx h
    split at h
    · cases h
    · next i1 x1 h1 =>
      have := intPart_lt h1
      split at h
      · cases h
      · next i2 x2 h2 =>
        have := fracPart_le h2
        split at h
        · cases h
        · next i3 x3 h3 =>
          have := expPart_le h3
          cases h; omega
  unfold number at h
  cases l with
  | nil => exact key [] [] (by simp) h
  | cons b l =>
    simp only at h
    by_cases hb : b = 45
    · simp only [if_pos hb] at h; exact key [b] l (by simp) h
    · simp only [if_neg hb] at h; exact key [] (b :: l) (by simp) h

theorem name_lt {lit l r : List Byte} (hl : lit ≠ []) (h : name lit l = some r) : r.length < l.length := by
  unfold name at h
  split at h
  · next he =>
    cases h
    have := congrArg List.length he
    have hpos : 0 < lit.length := List.length_pos_iff.mpr hl
    simp at this ⊢
    omega
  · cases h

theorem fuel_step (n : Nat) :
    (∀ l v r, value n l = some (v, r) → r.length < l.length ∧ value (2 * l.length) l = some (v, r)) ∧
    (∀ l v r, elements n l = some (v, r) → r.length < l.length ∧ elements (2 * l.length + 1) l = some (v, r)) ∧
    (∀ l v r, members n l = some (v, r) → r.length < l.length ∧ members (2 * l.length + 1) l = some (v, r)) := by
  induction n with
  | zero => exact ⟨fun _ _ _ h => (by cases h), fun _ _ _ h => (by cases h), fun _ _ _ h => (by cases h)⟩
  | succ n ih =>
    obtain ⟨iv, ie, im⟩ := ih
    have hv : ∀ l v r, value (n + 1) l = some (v, r) → r.length < l.length ∧ value (2 * l.length) l = some (v, r) := by
      intro l v r h
      rw [value] at h
      have hsk := skip_le l
      cases hs : skipWs l with
      | nil => rw [hs] at h; cases h
      | cons b l1 =>
        rw [hs] at h hsk
        simp only at h
        rw [List.length_cons] at hsk
        obtain ⟨k, hk⟩ : ∃ k, 2 * l.length = k + 2 := ⟨2 * l.length - 2, by omega⟩
        rw [hk, value, hs]
        simp only
        split at h
        · next hb =>
          rw [if_pos hb]
          cases ht : stringTail n l1 with
          | none => rw [ht] at h; cases h
          | some x =>
            rw [ht] at h
            cases h
            obtain ⟨g1, g2⟩ := stringTail_lt ht
            rw [stringTail_mono (show l1.length ≤ k + 1 by omega) g2]
            exact ⟨by omega, rfl⟩
        · next hb =>
          rw [if_neg hb]
          split at h
          · next hb =>
            rw [if_pos hb]
            have hsk1 := skip_le l1
            cases hs1 : skipWs l1 with
            | nil => rw [hs1] at h; cases h
            | cons c l2 =>
              rw [hs1] at h hsk1
              rw [List.length_cons] at hsk1
              simp only at h ⊢
              split at h
              · next hc => rw [if_pos hc]; cases h; exact ⟨by omega, rfl⟩
              · next hc =>
                rw [if_neg hc]
                cases he : elements n (c :: l2) with
                | none => rw [he] at h; cases h
                | some x =>
                  rw [he] at h
                  cases h
                  obtain ⟨g1, g2⟩ := ie _ _ _ he
                  rw [List.length_cons] at g1 g2
                  rw [elements_mono (show 2 * (l2.length + 1) + 1 ≤ k + 1 by omega) g2]
                  exact ⟨by omega, rfl⟩
          · next hb =>
            rw [if_neg hb]
            split at h
            · next hb =>
              rw [if_pos hb]
              have hsk1 := skip_le l1
              cases hs1 : skipWs l1 with
              | nil => rw [hs1] at h; cases h
              | cons c l2 =>
                rw [hs1] at h hsk1
                rw [List.length_cons] at hsk1
                simp only at h ⊢
                split at h
                · next hc => rw [if_pos hc]; cases h; exact ⟨by omega, rfl⟩
                · next hc =>
                  rw [if_neg hc]
                  cases he : members n (c :: l2) with
                  | none => rw [he] at h; cases h
                  | some x =>
                    rw [he] at h
                    cases h
                    obtain ⟨g1, g2⟩ := im _ _ _ he
                    rw [List.length_cons] at g1 g2
                    rw [members_mono (show 2 * (l2.length + 1) + 1 ≤ k + 1 by omega) g2]
                    exact ⟨by omega, rfl⟩
            · next hb =>
              rw [if_neg hb]
              refine ⟨?_, h⟩
              split at h
              · split at h
                · next hn => cases h; have := name_lt (by simp) hn; simp at this; omega
                · cases h
              · split at h
                · split at h
                  · next hn => cases h; have := name_lt (by simp) hn; simp at this; omega
                  · cases h
                · split at h
                  · split at h
                    · next hn => cases h; have := name_lt (by simp) hn; simp at this; omega
                    · cases h
                  · split at h
                    · next hn => cases h; have := number_lt hn; simp at this; omega
                    · cases h
    refine ⟨hv, ?_, ?_⟩
    · intro l v r h
      rw [elements] at h ⊢
      cases h1 : value n l with
      | none => rw [h1] at h; cases h
      | some x =>
        obtain ⟨v1, r1⟩ := x
        rw [h1] at h
        obtain ⟨g1, g2⟩ := iv _ _ _ h1
        rw [g2]
        simp only at h ⊢
        have hsk := skip_le r1
        cases hs : skipWs r1 with
        | nil => rw [hs] at h; cases h
        | cons c r2 =>
          rw [hs] at h hsk
          rw [List.length_cons] at hsk
          simp only at h ⊢
          split at h
          · next hc => rw [if_pos hc]; cases h; exact ⟨by omega, rfl⟩
          · next hc =>
            rw [if_neg hc]
            split at h
            · next hc =>
              rw [if_pos hc]
              cases h2 : elements n r2 with
              | none => rw [h2] at h; cases h
              | some x =>
                rw [h2] at h
                cases h
                obtain ⟨k1, k2⟩ := ie _ _ _ h2
                rw [elements_mono (show 2 * r2.length + 1 ≤ 2 * l.length by omega) k2]
                exact ⟨by omega, rfl⟩
            · cases h
    · intro l v r h
      rw [members] at h ⊢
      have hsk0 := skip_le l
      cases hs0 : skipWs l with
      | nil => rw [hs0] at h; cases h
      | cons q l1 =>
        rw [hs0] at h hsk0
        rw [List.length_cons] at hsk0
        simp only at h ⊢
        split at h
        · next hq =>
          rw [if_pos hq]
          cases ht : stringTail n l1 with
          | none => rw [ht] at h; cases h
          | some x =>
            obtain ⟨key, r1⟩ := x
            rw [ht] at h
            obtain ⟨g1, g2⟩ := stringTail_lt ht
            rw [stringTail_mono (show l1.length ≤ 2 * l.length by omega) g2]
            simp only at h ⊢
            have hsk1 := skip_le r1
            cases hs1 : skipWs r1 with
            | nil => rw [hs1] at h; cases h
            | cons c r2 =>
              rw [hs1] at h hsk1
              rw [List.length_cons] at hsk1
              simp only at h ⊢
              split at h
              · next hc =>
                rw [if_pos hc]
                cases h3 : value n r2 with
                | none => rw [h3] at h; cases h
                | some x =>
                  obtain ⟨v3, r3⟩ := x
                  rw [h3] at h
                  obtain ⟨k1, k2⟩ := iv _ _ _ h3
                  rw [value_mono (show 2 * r2.length ≤ 2 * l.length by omega) k2]
                  simp only at h ⊢
                  have hsk3 := skip_le r3
                  cases hs3 : skipWs r3 with
                  | nil => rw [hs3] at h; cases h
                  | cons d r4 =>
                    rw [hs3] at h hsk3
                    rw [List.length_cons] at hsk3
                    simp only at h ⊢
                    split at h
                    · next hd => rw [if_pos hd]; cases h; exact ⟨by omega, rfl⟩
                    · next hd =>
                      rw [if_neg hd]
                      split at h
                      · next hd =>
                        rw [if_pos hd]
                        cases h4 : members n r4 with
                        | none => rw [h4] at h; cases h
                        | some x =>
                          rw [h4] at h
                          cases h
                          obtain ⟨k3, k4⟩ := im _ _ _ h4
                          rw [members_mono (show 2 * r4.length + 1 ≤ 2 * l.length by omega) k4]
                          exact ⟨by omega, rfl⟩
                      · cases h
              · cases h
        · cases h

/-- What the bytes read as, computed. -/
def read (l : List Byte) : Option Json :=
  match value (2 * l.length) l with
  | some (v, r) => if skipWs r = [] then some v else none
  | none => none

/-- The reader is decided by a computation. -/
theorem reads_iff (l : List Byte) (v : Json) : Reads l v ↔ read l = some v := by
  unfold read
  constructor
  · rintro ⟨n, r, h, hr⟩
    rw [((fuel_step n).1 _ _ _ h).2]
    simp [hr]
  · intro h
    cases hv : value (2 * l.length) l with
    | none => rw [hv] at h; cases h
    | some x =>
      rw [hv] at h
      simp only at h
      split at h
      · next hr => cases h; exact ⟨_, _, hv, hr⟩
      · cases h

end Argo.Json
