import Verif.Playback.Agree

set_option autoImplicit false

/-! # What Go reads without replacing anything is JSON -/

namespace Argo.Playback

open Argo
open Argo.Json (Json skipWs isWs number hex4 firstChar)

/-- U+FFFD, which encoding/json puts in the place of what is not Unicode. -/
def replacement : Char := Char.ofNat 0xFFFD

mutual

/-- No string of the value has a replacement character. -/
def intact : Json → Prop
  | .str s => replacement ∉ s
  | .arr l => intactL l
  | .obj l => intactO l
  | _ => True

def intactL : List Json → Prop
  | [] => True
  | v :: l => intact v ∧ intactL l

def intactO : List (List Char × Json) → Prop
  | [] => True
  | m :: l => replacement ∉ m.1 ∧ intact m.2 ∧ intactO l

end

theorem unicode_strict {l : List Byte} {x : Char × List Byte} (h : unicode l = some x) (hx : x.1 ≠ replacement) : Json.unicode l = some x := by
  unfold Json.unicode
  unfold unicode at h
  have bad : ∀ {r : List Byte}, some (Char.ofNat 0xFFFD, r) = some x → False := by
    intro r hr
    rw [← Option.some.inj hr] at hx
    exact hx rfl
  split at h
  · cases h
  · next u r h1 =>
    rw [h1]
    simp only
    split at h
    · next hu =>
      split at h
      · next a b r' =>
        split at h
        · next hab =>
          split at h
          · next v r2 h2 =>
            split at h
            · next hv =>
              rw [if_pos ⟨hu.1, hv.1⟩]
              simp only
              rw [if_pos hab, h2]
              simp only
              rw [if_pos hv.2]
              exact h
            · exact (bad h).elim
          · exact (bad h).elim
        · exact (bad h).elim
      · exact (bad h).elim
    · next hu =>
      rw [if_neg (by omega), if_neg (by omega)]
      exact h

theorem character_strict {l : List Byte} {x : Char × List Byte} (h : character l = some x) (hx : x.1 ≠ replacement) : Json.character l = some x := by
  unfold Json.character
  unfold character at h
  cases l with
  | nil => exact h
  | cons b r =>
    simp only at h ⊢
    split at h
    · next hb =>
      rw [if_pos hb]
      cases r with
      | nil => cases h
      | cons e r' =>
        simp only at h ⊢
        by_cases h1 : e = 117
        · subst h1; exact unicode_strict h hx
        · simp only [if_neg h1] at h ⊢; exact h
    · next hb =>
      rw [if_neg hb]
      split at h
      · cases h
      · next h2 =>
        rw [if_neg h2]
        cases hf : firstChar (b :: r) with
        | none =>
          rw [hf] at h
          rw [← Option.some.inj h] at hx
          exact absurd rfl hx
        | some c => rw [hf] at h; exact h

theorem stringTail_strict {n : Nat} {l : List Byte} {x : List Char × List Byte}
    (h : stringTail n l = some x) (hx : replacement ∉ x.1) : Json.stringTail n l = some x := by
  induction n generalizing l x with
  | zero => cases h
  | succ n ih =>
    cases l with
    | nil => simp [stringTail] at h
    | cons b r =>
      simp only [stringTail] at h
      simp only [Json.stringTail]
      split
      · rename_i hb; rw [if_pos hb] at h; exact h
      · rename_i hb
        rw [if_neg hb] at h
        cases hc : character (b :: r) with
        | none => rw [hc] at h; cases h
        | some y =>
          rw [hc] at h
          simp only at h
          cases hs : stringTail n y.2 with
          | none => rw [hs] at h; cases h
          | some z =>
            rw [hs] at h
            rw [← Option.some.inj h] at hx
            simp only [List.mem_cons, not_or] at hx
            rw [character_strict hc fun e => hx.1 e.symm]
            simp only
            rw [ih hs hx.2]
            exact h

theorem strict_step (n : Nat) :
    (∀ l x, value n l = some x → intact x.1 → Json.value n l = some x) ∧
    (∀ l x, elements n l = some x → intactL x.1 → Json.elements n l = some x) ∧
    (∀ l x, members n l = some x → intactO x.1 → Json.members n l = some x) := by
  induction n with
  | zero => exact ⟨fun _ _ h => by simp [value] at h, fun _ _ h => by simp [elements] at h, fun _ _ h => by simp [members] at h⟩
  | succ n ih =>
    obtain ⟨iv, ie, im⟩ := ih
    refine ⟨fun l x h hx => ?_, fun l x h hx => ?_, fun l x h hx => ?_⟩
    · rw [value] at h; rw [Json.value]
      cases hw : skipWs l with
      | nil => rw [hw] at h; cases h
      | cons b r =>
        rw [hw] at h
        simp only at h ⊢
        by_cases h1 : b = 34
        · rw [if_pos h1] at h ⊢
          cases hs : stringTail n r with
          | none => rw [hs] at h; cases h
          | some y =>
            rw [hs] at h
            rw [← Option.some.inj h] at hx
            rw [stringTail_strict hs (by rwa [intact] at hx)]; exact h
        rw [if_neg h1] at h ⊢
        by_cases h2 : b = 91
        · rw [if_pos h2] at h ⊢
          cases hw2 : skipWs r with
          | nil => rw [hw2] at h; cases h
          | cons c r' =>
            rw [hw2] at h
            simp only at h ⊢
            by_cases h3 : c = 93
            · rw [if_pos h3] at h ⊢; exact h
            rw [if_neg h3] at h ⊢
            cases he : elements n (c :: r') with
            | none => rw [he] at h; cases h
            | some y =>
              rw [he] at h
              rw [← Option.some.inj h] at hx
              rw [ie _ _ he (by rwa [intact] at hx)]; exact h
        rw [if_neg h2] at h ⊢
        by_cases h4 : b = 123
        · rw [if_pos h4] at h ⊢
          cases hw2 : skipWs r with
          | nil => rw [hw2] at h; cases h
          | cons c r' =>
            rw [hw2] at h
            simp only at h ⊢
            by_cases h3 : c = 125
            · rw [if_pos h3] at h ⊢; exact h
            rw [if_neg h3] at h ⊢
            cases he : members n (c :: r') with
            | none => rw [he] at h; cases h
            | some y =>
              rw [he] at h
              rw [← Option.some.inj h] at hx
              rw [im _ _ he (by rwa [intact] at hx)]; exact h
        rw [if_neg h4] at h ⊢
        exact h
    · rw [elements] at h
      cases hv : value n l with
      | none => rw [hv] at h; cases h
      | some y =>
        rw [hv] at h
        simp only at h
        have hvx : intact y.1 → Json.value n l = some y := iv _ _ hv
        cases hw : skipWs y.2 with
        | nil => rw [hw] at h; cases h
        | cons c r' =>
          rw [hw] at h
          simp only at h
          by_cases h1 : c = 93
          · rw [if_pos h1] at h
            rw [← Option.some.inj h] at hx
            simp only [intactL] at hx
            rw [Json.elements, hvx hx.1]
            simp only [hw]
            rw [if_pos h1]
            exact h
          rw [if_neg h1] at h
          by_cases h2 : c = 44
          · rw [if_pos h2] at h
            cases he : elements n r' with
            | none => rw [he] at h; cases h
            | some z =>
              rw [he] at h
              rw [← Option.some.inj h] at hx
              simp only [intactL] at hx
              rw [Json.elements, hvx hx.1]
              simp only [hw]
              rw [if_neg h1, if_pos h2, ie _ _ he hx.2]
              exact h
          rw [if_neg h2] at h; cases h
    · rw [members] at h
      cases hw : skipWs l with
      | nil => rw [hw] at h; cases h
      | cons q r =>
        rw [hw] at h
        simp only at h
        by_cases hq : q = 34
        · rw [if_pos hq] at h
          cases hs : stringTail n r with
          | none => rw [hs] at h; cases h
          | some y =>
            rw [hs] at h
            simp only at h
            cases hw1 : skipWs y.2 with
            | nil => rw [hw1] at h; cases h
            | cons c r2 =>
              rw [hw1] at h
              simp only at h
              by_cases hc : c = 58
              · rw [if_pos hc] at h
                cases hv : value n r2 with
                | none => rw [hv] at h; cases h
                | some z =>
                  rw [hv] at h
                  simp only at h
                  cases hw3 : skipWs z.2 with
                  | nil => rw [hw3] at h; cases h
                  | cons d r4 =>
                    rw [hw3] at h
                    simp only at h
                    by_cases h1 : d = 125
                    · rw [if_pos h1] at h
                      rw [← Option.some.inj h] at hx
                      simp only [intactO] at hx
                      rw [Json.members, hw]
                      simp only
                      rw [if_pos hq, stringTail_strict hs hx.1]
                      simp only [hw1]
                      rw [if_pos hc, iv _ _ hv hx.2.1]
                      simp only [hw3]
                      rw [if_pos h1]
                      exact h
                    rw [if_neg h1] at h
                    by_cases h2 : d = 44
                    · rw [if_pos h2] at h
                      cases he : members n r4 with
                      | none => rw [he] at h; cases h
                      | some w =>
                        rw [he] at h
                        rw [← Option.some.inj h] at hx
                        simp only [intactO] at hx
                        rw [Json.members, hw]
                        simp only
                        rw [if_pos hq, stringTail_strict hs hx.1]
                        simp only [hw1]
                        rw [if_pos hc, iv _ _ hv hx.2.1]
                        simp only [hw3]
                        rw [if_neg h1, if_pos h2, im _ _ he hx.2.2]
                        exact h
                    rw [if_neg h2] at h; cases h
              · rw [if_neg hc] at h; cases h
        · rw [if_neg hq] at h; cases h

/-- What is read without a replacement character is JSON. -/
theorem reads_read {l : List Byte} {v : Json} (h : read l = some v) (hv : intact v) : Json.Reads l v := by
  obtain ⟨n, r, h, hr⟩ := (read_iff l v).mp h
  exact ⟨n, r, (strict_step n).1 _ _ h hv, hr⟩

end Argo.Playback
