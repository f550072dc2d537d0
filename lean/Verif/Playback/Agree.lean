import Verif.Playback.Reader

set_option autoImplicit false

/-! # What RFC 8259 makes of a text, Go makes of it -/

namespace Argo.Playback

open Argo
open Argo.Json (Json skipWs isWs number name hex4 firstChar)

theorem unicode_agree {l : List Byte} {x : Char × List Byte} (h : Json.unicode l = some x) : unicode l = some x := by
  unfold Json.unicode at h
  unfold unicode
  split at h
  · cases h
  · next u r h1 =>
    rw [h1]
    simp only
    split at h
    · next hu =>
      rw [if_pos ⟨hu.1, by omega⟩]
      split at h
      · next a b r' =>
        simp only
        split at h
        · next hab =>
          rw [if_pos hab]
          split at h
          · next v r2 h2 =>
            rw [h2]
            simp only
            split at h
            · next hv => rw [if_pos ⟨hu.2, hv⟩]; exact h
            · cases h
          · cases h
        · cases h
      · cases h
    · next hu =>
      split at h
      · cases h
      · next hu2 => rw [if_neg (by omega)]; exact h

theorem character_agree {l : List Byte} {x : Char × List Byte} (h : Json.character l = some x) : character l = some x := by
  unfold Json.character at h
  unfold character
  cases l with
  | nil => exact h
  | cons b r =>
    simp only at h ⊢
    split at h
    · next hb =>
      rw [if_pos hb]
      cases r with
      | nil => cases h
      | cons e r' =>
        simp only at h ⊢
        by_cases h1 : e = 117
        · subst h1; exact unicode_agree h
        · simp only [if_neg h1] at h ⊢; exact h
    · next hb =>
      rw [if_neg hb]
      split at h
      · cases h
      · next h2 =>
        rw [if_neg h2]
        cases hf : firstChar (b :: r) with
        | none => rw [hf] at h; cases h
        | some c => rw [hf] at h; exact h

theorem stringTail_agree {n : Nat} {l : List Byte} {x : List Char × List Byte}
    (h : Json.stringTail n l = some x) : stringTail n l = some x := by
  induction n generalizing l x with
  | zero => cases h
  | succ n ih =>
    cases l with
    | nil => simp [Json.stringTail] at h
    | cons b r =>
      simp only [Json.stringTail] at h
      simp only [stringTail]
      split
      · rename_i hb; rw [if_pos hb] at h; exact h
      · rename_i hb
        rw [if_neg hb] at h
        cases hc : Json.character (b :: r) with
        | none => rw [hc] at h; cases h
        | some y =>
          rw [hc] at h
          rw [character_agree hc]
          simp only at h ⊢
          cases hs : Json.stringTail n y.2 with
          | none => rw [hs] at h; cases h
          | some z =>
            rw [hs] at h
            rw [ih hs]
            exact h

theorem agree_step (n : Nat) :
    (∀ l x, Json.value n l = some x → value n l = some x) ∧
    (∀ l x, Json.elements n l = some x → elements n l = some x) ∧
    (∀ l x, Json.members n l = some x → members n l = some x) := by
  induction n with
  | zero => exact ⟨fun _ _ h => by simp [Json.value] at h, fun _ _ h => by simp [Json.elements] at h, fun _ _ h => by simp [Json.members] at h⟩
  | succ n ih =>
    obtain ⟨iv, ie, im⟩ := ih
    refine ⟨fun l x h => ?_, fun l x h => ?_, fun l x h => ?_⟩
    · rw [Json.value] at h; rw [value]
      cases hw : skipWs l with
      | nil => rw [hw] at h; cases h
      | cons b r =>
        rw [hw] at h
        simp only at h ⊢
        by_cases h1 : b = 34
        · rw [if_pos h1] at h ⊢
          cases hs : Json.stringTail n r with
          | none => rw [hs] at h; cases h
          | some y => rw [hs] at h; rw [stringTail_agree hs]; exact h
        rw [if_neg h1] at h ⊢
        by_cases h2 : b = 91
        · rw [if_pos h2] at h ⊢
          cases hw2 : skipWs r with
          | nil => rw [hw2] at h; cases h
          | cons c r' =>
            rw [hw2] at h
            simp only at h ⊢
            by_cases h3 : c = 93
            · rw [if_pos h3] at h ⊢; exact h
            rw [if_neg h3] at h ⊢
            cases he : Json.elements n (c :: r') with
            | none => rw [he] at h; cases h
            | some y => rw [he] at h; rw [ie _ _ he]; exact h
        rw [if_neg h2] at h ⊢
        by_cases h4 : b = 123
        · rw [if_pos h4] at h ⊢
          cases hw2 : skipWs r with
          | nil => rw [hw2] at h; cases h
          | cons c r' =>
            rw [hw2] at h
            simp only at h ⊢
            by_cases h3 : c = 125
            · rw [if_pos h3] at h ⊢; exact h
            rw [if_neg h3] at h ⊢
            cases he : Json.members n (c :: r') with
            | none => rw [he] at h; cases h
            | some y => rw [he] at h; rw [im _ _ he]; exact h
        rw [if_neg h4] at h ⊢
        exact h
    · rw [Json.elements] at h; rw [elements]
      cases hv : Json.value n l with
      | none => rw [hv] at h; cases h
      | some y =>
        rw [hv] at h
        rw [iv _ _ hv]
        simp only at h ⊢
        cases hw : skipWs y.2 with
        | nil => rw [hw] at h; cases h
        | cons c r' =>
          rw [hw] at h
          simp only at h ⊢
          by_cases h1 : c = 93
          · rw [if_pos h1] at h ⊢; exact h
          rw [if_neg h1] at h ⊢
          by_cases h2 : c = 44
          · rw [if_pos h2] at h ⊢
            cases he : Json.elements n r' with
            | none => rw [he] at h; cases h
            | some z => rw [he] at h; rw [ie _ _ he]; exact h
          rw [if_neg h2] at h; cases h
    · rw [Json.members] at h; rw [members]
      cases hw : skipWs l with
      | nil => rw [hw] at h; cases h
      | cons q r =>
        rw [hw] at h
        simp only at h ⊢
        by_cases hq : q = 34
        · rw [if_pos hq] at h ⊢
          cases hs : Json.stringTail n r with
          | none => rw [hs] at h; cases h
          | some y =>
            rw [hs] at h
            rw [stringTail_agree hs]
            simp only at h ⊢
            cases hw1 : skipWs y.2 with
            | nil => rw [hw1] at h; cases h
            | cons c r2 =>
              rw [hw1] at h
              simp only at h ⊢
              by_cases hc : c = 58
              · rw [if_pos hc] at h ⊢
                cases hv : Json.value n r2 with
                | none => rw [hv] at h; cases h
                | some z =>
                  rw [hv] at h
                  rw [iv _ _ hv]
                  simp only at h ⊢
                  cases hw3 : skipWs z.2 with
                  | nil => rw [hw3] at h; cases h
                  | cons d r4 =>
                    rw [hw3] at h
                    simp only at h ⊢
                    by_cases h1 : d = 125
                    · rw [if_pos h1] at h ⊢; exact h
                    rw [if_neg h1] at h ⊢
                    by_cases h2 : d = 44
                    · rw [if_pos h2] at h ⊢
                      cases he : Json.members n r4 with
                      | none => rw [he] at h; cases h
                      | some w => rw [he] at h; rw [im _ _ he]; exact h
                    rw [if_neg h2] at h; cases h
              · rw [if_neg hc] at h; cases h
        · rw [if_neg hq] at h; cases h

/-- A JSON text is read as what it is. -/
theorem read_reads {l : List Byte} {v : Json} (h : Json.Reads l v) : read l = some v := by
  obtain ⟨n, r, h, hr⟩ := h
  exact (read_iff l v).mpr ⟨n, r, (agree_step n).1 _ _ h, hr⟩

end Argo.Playback
