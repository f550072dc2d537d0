import Verif.Toml.Back

set_option autoImplicit false

/-! # Lemmas: names that do not come back -/

namespace Argo.Toml

open Argo Config Signalk

theorem hex_mem (n acc : Nat) (t : Str) (u : Nat) (r : Str) (h : hex n acc t = some (u, r)) : ∀ x ∈ r, x ∈ t := by
  induction n generalizing acc t with
  | zero => simp only [hex, Option.some.injEq, Prod.mk.injEq] at h; rw [h.2]; exact fun x hx => hx
  | succ n ih =>
    cases t with
    | nil => simp [hex] at h
    | cons b t =>
      simp only [hex] at h
      cases hb : Json.hexVal b with
      | none => simp [hb] at h
      | some d =>
        simp only [hb] at h
        exact fun x hx => List.mem_cons_of_mem _ (ih _ _ h x hx)

theorem scalarValue_mem (n : Nat) (t : Str) (c r : Str) (h : scalarValue n t = some (c, r)) : ∀ x ∈ r, x ∈ t := by
  unfold scalarValue at h
  cases hh : hex n 0 t with
  | none => simp [hh] at h
  | some p =>
    obtain ⟨u, r'⟩ := p
    simp only [hh] at h
    split_ifs at h
    have := (Prod.mk.inj (Option.some.inj h)).2
    rw [← this]
    exact hex_mem n 0 t u r' hh

theorem character_mem (strict : Bool) (t c r : Str) (h : character strict t = some (c, r)) : ∀ x ∈ r, x ∈ t := by
  cases t with
  | nil => simp [character] at h
  | cons b t =>
    unfold character at h
    simp only at h
    split_ifs at h with h1 h2
    · cases t with
      | nil => simp at h
      | cons e t =>
        simp only at h
        cases hs : short e with
        | some c' =>
          simp only [hs] at h
          have := (Prod.mk.inj (Option.some.inj h)).2
          rw [← this]
          exact fun x hx => by simp [hx]
        | none =>
          simp only [hs] at h
          split_ifs at h
          · exact fun x hx => by have := scalarValue_mem _ _ _ _ h x hx; simp [this]
          · exact fun x hx => by have := scalarValue_mem _ _ _ _ h x hx; simp [this]
    · have := (Prod.mk.inj (Option.some.inj h)).2
      rw [← this]
      exact fun x hx => by simp [hx]

/-- No closing quotation mark, no string. -/
theorem basic_open (strict : Bool) (n : Nat) (t : Str) (h : (34 : UInt8) ∉ t) : basic strict n t = none := by
  induction n generalizing t with
  | zero => rfl
  | succ n ih =>
    cases t with
    | nil => rfl
    | cons b t =>
      have hb : b ≠ 34 := by rintro rfl; exact h (by simp)
      simp only [basic, hb, if_false]
      cases hc : character strict (b :: t) with
      | none => rfl
      | some p =>
        obtain ⟨c, r⟩ := p
        simp only
        rw [ih r (fun hr => h (character_mem strict _ _ _ hc 34 hr))]

/-- A quoted key that is not closed is no key. -/
theorem basic_unclosed (strict : Bool) (k : Str) (h : (92 : UInt8) ∉ k) (n : Nat) : basic strict n (quotes k) = none := by
  induction k generalizing n with
  | nil => cases n <;> rfl
  | cons b k ih =>
    have ih := ih (fun hh => h (by simp [hh]))
    cases n with
    | zero => rfl
    | succ n =>
      have hq : quotes (b :: k) = (if b = 34 then [92, 34] else [b]) ++ quotes k := by rw [quotes, List.flatMap_cons]
      rw [hq]
      have ih := ih n
      generalize quotes k = q at ih
      have hb : b ≠ 92 := by rintro rfl; exact h (by simp)
      split_ifs with h1
      · subst h1
        have hs : short 34 = some 34 := rfl
        simp [basic, character, hs, ih]
      · cases hban : banned strict b <;> simp [basic, character, h1, hb, ih, hban]

theorem hex_quotes (n acc : Nat) (k r : Str) (u : Nat) (t : Str) (h : hex n acc (quotes k ++ 34 :: r) = some (u, t)) :
    ∃ k', t = quotes k' ++ 34 :: r ∧ k.length = k'.length + n := by
  induction n generalizing acc k with
  | zero =>
    simp only [hex, Option.some.injEq, Prod.mk.injEq] at h
    exact ⟨k, h.2.symm, rfl⟩
  | succ n ih =>
    cases k with
    | nil =>
      have : Json.hexVal 34 = none := by decide
      simp [hex, this] at h
    | cons b k =>
      have hq : quotes (b :: k) = (if b = 34 then [92, 34] else [b]) ++ quotes k := by rw [quotes, List.flatMap_cons]
      rw [hq] at h
      split_ifs at h with h1
      · have : Json.hexVal 92 = none := by decide
        simp [hex, this] at h
      · simp only [List.cons_append, List.nil_append, hex] at h
        cases hb : Json.hexVal b with
        | none => simp [hb] at h
        | some d =>
          simp only [hb] at h
          obtain ⟨k', h1, h2⟩ := ih _ _ h
          exact ⟨k', h1, by simp [h2]; omega⟩

theorem char_length (c : Char) : (bs (String.singleton c)).length ≤ 4 := by
  rw [Json.bs_eq]
  simp only [String.toList_singleton, List.flatMap_cons, List.flatMap_nil, List.append_nil, String.length_utf8EncodeChar]
  exact Char.utf8Size_le_four c

theorem scalarValue_quotes (n : Nat) (hn : 4 ≤ n) (k r c t : Str) (h : scalarValue n (quotes k ++ 34 :: r) = some (c, t)) :
    ∃ k', t = quotes k' ++ 34 :: r ∧ c.length + k'.length ≤ k.length := by
  unfold scalarValue at h
  cases hh : hex n 0 (quotes k ++ 34 :: r) with
  | none => simp [hh] at h
  | some p =>
    obtain ⟨u, r'⟩ := p
    simp only [hh] at h
    split_ifs at h
    have he := Prod.mk.inj (Option.some.inj h)
    obtain ⟨k', h1, h2⟩ := hex_quotes n 0 k r u r' hh
    refine ⟨k', by rw [← he.2, h1], ?_⟩
    have := char_length (Char.ofNat u)
    rw [← he.1]
    omega

/-- What is read back of a quoted key is never longer than the key, and shorter if there is a backslash in it. -/
theorem basic_shrinks (strict : Bool) (n : Nat) (k r s t : Str) (hr : (34 : UInt8) ∉ r)
    (h : basic strict n (quotes k ++ 34 :: r) = some (s, t)) :
    s.length ≤ k.length ∧ ((92 : UInt8) ∈ k → s.length < k.length) := by
  induction n generalizing k s t with
  | zero => simp [basic] at h
  | succ n ih =>
    have step : ∀ (text c k' : Str), (∀ b r', text = b :: r' → b ≠ 34) → character strict text = some (c, quotes k' ++ 34 :: r) →
        basic strict (n + 1) text = some (s, t) → ∃ s', s = c ++ s' ∧ s'.length ≤ k'.length ∧ ((92 : UInt8) ∈ k' → s'.length < k'.length) := by
      intro text c k' h0 hc hb
      cases text with
      | nil => simp [basic] at hb
      | cons b r' =>
        simp only [basic, h0 b r' rfl, if_false, hc] at hb
        cases hb' : basic strict n (quotes k' ++ 34 :: r) with
        | none => simp [hb'] at hb
        | some p =>
          obtain ⟨s', t'⟩ := p
          simp only [hb'] at hb
          have := (Prod.mk.inj (Option.some.inj hb)).1
          exact ⟨s', this.symm, ih k' s' t' hb'⟩
    cases k with
    | nil =>
      simp only [List.flatMap_nil, List.nil_append, basic, if_true] at h
      have := (Prod.mk.inj (Option.some.inj h)).1
      subst this
      simp
    | cons b k =>
      have hq : ∀ b k, quotes (b :: k) = (if b = 34 then [92, 34] else [b]) ++ quotes k := by intro b k; rw [quotes, List.flatMap_cons]
      by_cases h34 : b = 34
      · subst h34
        rw [hq, if_pos rfl] at h
        obtain ⟨s', rfl, h1, h2⟩ := step _ [34] k (by intro b r' hh; simp at hh; rw [← hh.1]; decide) rfl h
        refine ⟨by simp; omega, fun hm => ?_⟩
        have : (92 : UInt8) ∈ k := by simpa using hm
        have := h2 this
        simp; omega
      · by_cases h92 : b = 92
        · subst h92
          rw [hq, if_neg h34] at h
          suffices hlt : s.length < (92 :: k).length from ⟨by omega, fun _ => hlt⟩
          cases k with
          | nil =>
            simp only [quotes, List.flatMap_nil, List.append_nil, List.cons_append, List.nil_append, basic, h34, if_false] at h
            have hc : character strict (92 :: 34 :: r) = some ([34], r) := rfl
            simp only [hc, basic_open strict n r hr] at h
            simp at h
          | cons e k =>
            by_cases he : e = 34
            · subst he
              rw [hq, if_pos rfl] at h
              have hc : character strict (92 :: 92 :: 34 :: (quotes k ++ 34 :: r)) = some ([92], 34 :: (quotes k ++ 34 :: r)) := rfl
              simp only [List.cons_append, List.nil_append, List.append_assoc, basic, h34, if_false, hc] at h
              cases n with
              | zero => simp [basic] at h
              | succ n =>
                simp only [basic, if_true] at h
                have := (Prod.mk.inj (Option.some.inj h)).1
                rw [← this]
                simp
            · rw [hq, if_neg he] at h
              have hform : [92] ++ ([e] ++ quotes k) ++ 34 :: r = 92 :: e :: (quotes k ++ 34 :: r) := by simp
              rw [hform] at h
              have hne : ∀ b r', 92 :: e :: (quotes k ++ 34 :: r) = b :: r' → b ≠ (34 : UInt8) := by
                intro b r' hh
                rw [← (List.cons.inj hh).1]; decide
              cases hc : character strict (92 :: e :: (quotes k ++ 34 :: r)) with
              | none => simp [basic, hc] at h
              | some p =>
                obtain ⟨c, t'⟩ := p
                have hk' : ∃ k', t' = quotes k' ++ 34 :: r ∧ c.length + k'.length ≤ k.length + 1 := by
                  unfold character at hc
                  simp only [if_true] at hc
                  cases hs : short e with
                  | some c' =>
                    simp only [hs] at hc
                    have := Prod.mk.inj (Option.some.inj hc)
                    refine ⟨k, this.2.symm, ?_⟩
                    rw [← this.1]
                    simp; omega
                  | none =>
                    simp only [hs] at hc
                    split_ifs at hc
                    · obtain ⟨k', h1, h2⟩ := scalarValue_quotes 4 (by omega) k r c t' hc
                      exact ⟨k', h1, by omega⟩
                    · obtain ⟨k', h1, h2⟩ := scalarValue_quotes 8 (by omega) k r c t' hc
                      exact ⟨k', h1, by omega⟩
                obtain ⟨k', rfl, hlen⟩ := hk'
                obtain ⟨s', rfl, h1, _⟩ := step _ c k' hne hc h
                simp
                omega
        · rw [hq, if_neg h34] at h
          cases hban : banned strict b with
          | true =>
            have hc : character strict (b :: (quotes k ++ 34 :: r)) = none := by simp [character, h92, hban]
            simp [basic, h34, hc] at h
          | false =>
            have hc : character strict ([b] ++ quotes k ++ 34 :: r) = some ([b], quotes k ++ 34 :: r) := by
              simp [character, h92, h34, hban]
            obtain ⟨s', rfl, h1, h2⟩ := step _ [b] k (by intro x r' hh; simp at hh; rw [← hh.1]; exact h34) hc h
            refine ⟨by simp; omega, fun hm => ?_⟩
            have : (92 : UInt8) ∈ k := by
              rcases List.mem_cons.mp hm with h | h
              · exact absurd h.symm h92
              · exact h
            have := h2 this
            simp; omega

theorem path_head (strict : Bool) (n : Nat) (t : Str) (p : List Str) (e : Str) (h : path strict n t = some (p, e)) :
    ∃ k r q, key strict (skip t) = some (k, r) ∧ p = k :: q := by
  cases n with
  | zero => simp [path] at h
  | succ n =>
    unfold path at h
    cases hk : key strict (skip t) with
    | none => simp [hk] at h
    | some x =>
      obtain ⟨k, r⟩ := x
      simp only [hk] at h
      refine ⟨k, r, ?_⟩
      cases hs : skip r with
      | nil => simp [hs] at h
      | cons b r' =>
        simp only [hs] at h
        split_ifs at h
        · have := (Prod.mk.inj (Option.some.inj h)).1
          exact ⟨[], rfl, this.symm⟩
        · cases hp : path strict n r' with
          | none => simp [hp] at h
          | some y =>
            simp only [hp] at h
            have := (Prod.mk.inj (Option.some.inj h)).1
            exact ⟨_, rfl, this.symm⟩

/-- The header of an interface, if it reads as one at all, names an interface whose name is not longer, and shorter if there
is a backslash in the name written. -/
theorem header_shrinks (strict : Bool) (k : Str) (h0 : k ≠ []) (l : Line) (h : line strict (subLine k) = some l) :
    ∃ s q, l = .table (bs "Interfaces" :: s :: q) ∧ s.length ≤ k.length ∧ ((92 : UInt8) ∈ k → s.length < k.length) := by
  rw [line_sub' strict k h0] at h
  cases hp : path strict ((keyText (bs "Interfaces") ++ 46 :: (keyText k ++ [93])).length) (keyText k ++ [93]) with
  | none => rw [hp] at h; cases h
  | some x =>
    obtain ⟨p, e⟩ := x
    simp only [hp] at h
    split_ifs at h
    obtain ⟨s, r, q, hk, rfl⟩ := path_head strict _ _ _ _ hp
    refine ⟨s, q, (Option.some.inj h).symm, ?_⟩
    rw [keyText_skip k h0] at hk
    unfold keyText at hk
    rw [bare_eq] at hk
    split_ifs at hk with hb
    · rw [key_bare strict k h0 hb [93] (by intro b hb; simp at hb; subst hb; decide)] at hk
      have := (Prod.mk.inj (Option.some.inj hk)).1
      subst this
      refine ⟨le_refl _, fun hm => ?_⟩
      exact absurd (List.all_eq_true.mp hb 92 hm) (by decide)
    · simp only [List.cons_append, List.append_assoc, key, if_true, List.nil_append] at hk
      exact basic_shrinks strict _ k [93] s r (by decide) hk

end Argo.Toml
