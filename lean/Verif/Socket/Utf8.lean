import Verif.Json.Lemmas
import Verif.Socket.Spec

set_option autoImplicit false

/-! # Every JSON text is a text of RFC 6455: it is UTF-8 -/

namespace Argo.Socket

open Argo Argo.Json

/-- The bytes up to `r` encode characters. -/
def Enc (l r : List Byte) : Prop := ∃ cs : List Char, l = cs.flatMap String.utf8EncodeChar ++ r

theorem Enc.refl (l : List Byte) : Enc l l := ⟨[], rfl⟩

theorem Enc.trans {a b c : List Byte} (h1 : Enc a b) (h2 : Enc b c) : Enc a c := by
  obtain ⟨x, rfl⟩ := h1
  obtain ⟨y, rfl⟩ := h2
  exact ⟨x ++ y, by simp⟩

theorem Enc.cons {b : Byte} (hb : b.toNat < 0x80) (r : List Byte) : Enc (b :: r) r :=
  ⟨[Char.ofNat b.toNat], by simp [encode_ascii hb]⟩

theorem Enc.all {p : List Byte} (hp : ∀ b ∈ p, b.toNat < 0x80) (r : List Byte) : Enc (p ++ r) r := by
  induction p with
  | nil => exact Enc.refl _
  | cons b p ih => exact (Enc.cons (hp b (by simp)) _).trans (ih fun x hx => hp x (by simp [hx]))

theorem Enc.eq {b : Byte} {r : List Byte} {n : Byte} (h : b = n) (hn : n.toNat < 0x80) : Enc (b :: r) r := Enc.cons (h ▸ hn) r

theorem enc_skipWs (l : List Byte) : Enc l (skipWs l) := by
  induction l with
  | nil => exact Enc.refl _
  | cons b r ih =>
    rw [skipWs]
    split
    · next h =>
      refine (Enc.cons ?_ r).trans ih
      simp only [isWs, Bool.or_eq_true, beq_iff_eq] at h
      rcases h with ((rfl | rfl) | rfl) | rfl <;> decide
    · exact Enc.refl _

theorem enc_digits (l : List Byte) : Enc l (digits l).2 := by
  have : l = (digits l).1 ++ (digits l).2 := by simp [digits]
  conv => lhs; rw [this]
  refine Enc.all (fun b hb => ?_) _
  have h := List.all_eq_true.mp (List.all_takeWhile (p := isDigit) (l := l)) b hb
  simp only [isDigit, decide_eq_true_eq] at h
  omega

theorem digit_small {b : Byte} (h : isDigit b = true) : b.toNat < 0x80 := by
  simp only [isDigit, decide_eq_true_eq] at h; omega

theorem enc_intPart {l t r : List Byte} (h : intPart l = some (t, r)) : Enc l r := by
  cases l with
  | nil => cases h
  | cons b l =>
    simp only [intPart] at h
    split at h
    · next hb => cases h; exact Enc.eq hb (by decide)
    · split at h
      · next hb => cases h; exact (Enc.cons (digit_small hb) _).trans (enc_digits _)
      · cases h

theorem enc_fracPart {l t r : List Byte} (h : fracPart l = some (t, r)) : Enc l r := by
  cases l with
  | nil => cases h; exact Enc.refl _
  | cons b l =>
    simp only [fracPart] at h
    split at h
    · next hb =>
      split at h
      · cases h
      · cases h; exact (Enc.eq hb (by decide)).trans (enc_digits _)
    · cases h; exact Enc.refl _

theorem enc_expPart {l t r : List Byte} (h : expPart l = some (t, r)) : Enc l r := by
  cases l with
  | nil => cases h; exact Enc.refl _
  | cons b l =>
    simp only [expPart] at h
    split at h
    · next hb =>
      have hb' : b.toNat < 0x80 := by rcases hb with rfl | rfl <;> decide
      cases l with
      | nil => cases h
      | cons s l =>
        simp only at h
        split at h
        · next hs =>
          have hs' : s.toNat < 0x80 := by rcases hs with rfl | rfl <;> decide
          split at h
          · cases h
          · cases h; exact ((Enc.cons hb' _).trans (Enc.cons hs' _)).trans (enc_digits _)
        · split at h
          · cases h
          · cases h; exact (Enc.cons hb' _).trans (enc_digits _)
    · cases h; exact Enc.refl _

theorem enc_number {l t r : List Byte} (h : Json.number l = some (t, r)) : Enc l r := by
  have key : ∀ {m l' : List Byte}, (match intPart l' with
      | none => none
      | some (i, bs) =>
        match fracPart bs with
        | none => none
        | some (f, bs) =>
          match expPart bs with
          | none => none
          | some (e, bs) => some (m ++ i ++ f ++ e, bs)) = some (t, r) → Enc l' r := by
    intro m l' h
    split at h
    · cases h
    · next hi =>
      split at h
      · cases h
      · next hf =>
        split at h
        · cases h
        · next he => cases h; exact ((enc_intPart hi).trans (enc_fracPart hf)).trans (enc_expPart he)
  cases l with
  | nil => exact key (m := []) h
  | cons b l =>
    simp only [Json.number] at h
    by_cases hb : b = 45
    · rw [if_pos hb] at h
      exact (Enc.eq hb (by decide)).trans (key h)
    · rw [if_neg hb] at h
      exact key h

theorem hex_small {b : Byte} {n : Nat} (h : hexVal b = some n) : b.toNat < 0x80 := by
  unfold hexVal at h
  split at h
  · omega
  · split at h
    · omega
    · split at h
      · omega
      · cases h

theorem enc_hex4 {l r : List Byte} {n : Nat} (h : hex4 l = some (n, r)) : Enc l r := by
  match l with
  | [] | [_] | [_, _] | [_, _, _] => cases h
  | a :: b :: c :: d :: l =>
    simp only [hex4] at h
    split at h
    · next h1 h2 h3 h4 =>
      cases h
      exact (((Enc.cons (hex_small h1) _).trans (Enc.cons (hex_small h2) _)).trans (Enc.cons (hex_small h3) _)).trans
        (Enc.cons (hex_small h4) _)
    · cases h

theorem enc_unicode {l r : List Byte} {c : Char} (h : unicode l = some (c, r)) : Enc l r := by
  unfold unicode at h
  split at h
  · cases h
  · next h1 =>
    refine (enc_hex4 h1).trans ?_
    split at h
    · split at h
      · split at h
        · next hxy =>
          split at h
          · next h2 =>
            split at h
            · rw [← (Prod.mk.inj (Option.some.inj h)).2]
              exact ((Enc.eq hxy.1 (by decide)).trans (Enc.eq hxy.2 (by decide))).trans (enc_hex4 h2)
            · cases h
          · cases h
        · cases h
      · cases h
    · split at h
      · cases h
      · cases h; exact Enc.refl _

theorem enc_character {l r : List Byte} {c : Char} (h : character l = some (c, r)) : Enc l r := by
  cases l with
  | nil => cases h
  | cons b l =>
    simp only [character] at h
    split at h
    · next hb =>
      refine (Enc.eq hb (by decide)).trans ?_
      cases l with
      | nil => cases h
      | cons e l =>
        simp only at h
        have go : ∀ {n : Byte} {x : Option (Char × List Byte)} {d : Char}, n.toNat < 0x80 →
            (if e = n then some (d, l) else x) = some (c, r) → (x = some (c, r) → Enc (e :: l) r) → Enc (e :: l) r := by
          intro n x d hn h1 h2
          by_cases he : e = n
          · rw [if_pos he] at h1
            cases h1
            exact Enc.eq he hn
          · rw [if_neg he] at h1
            exact h2 h1
        refine go (by decide) h fun h => go (by decide) h fun h => go (by decide) h fun h => go (by decide) h fun h =>
          go (by decide) h fun h => go (by decide) h fun h => go (by decide) h fun h => go (by decide) h fun h => ?_
        split at h
        · next he => exact (Enc.eq he (by decide)).trans (enc_unicode h)
        · cases h
    · split at h
      · cases h
      · split at h
        · next hf =>
          cases h
          have := (firstChar_split hf).2
          exact ⟨[c], by simpa using this⟩
        · cases h

theorem enc_stringTail {n : Nat} : ∀ {l r : List Byte} {s : List Char}, stringTail n l = some (s, r) → Enc l r := by
  induction n with
  | zero => intro l r s h; cases h
  | succ n ih =>
    intro l r s h
    cases l with
    | nil => cases h
    | cons b l =>
      simp only [stringTail] at h
      split at h
      · next hb => cases h; exact Enc.eq hb (by decide)
      · split at h
        · cases h
        · next hc =>
          split at h
          · cases h
          · next ht => cases h; exact (enc_character hc).trans (ih ht)

theorem enc_name {lit l r : List Byte} (hl : ∀ b ∈ lit, b.toNat < 0x80) (h : name lit l = some r) : Enc l r := by
  unfold name at h
  split at h
  · next ht =>
    cases h
    have : l = lit ++ l.drop lit.length := by
      conv => lhs; rw [← List.take_append_drop lit.length l, ht]
    conv => lhs; rw [this]
    exact Enc.all hl _
  · cases h

/-- Whitespace and one byte. -/
theorem enc_ws {l r : List Byte} {b n : Byte} (h : skipWs l = b :: r) (hb : b = n) (hn : n.toNat < 0x80) : Enc l r := by
  have := enc_skipWs l
  rw [h] at this
  exact this.trans (Enc.eq hb hn)

theorem enc_values (n : Nat) :
    (∀ {l r : List Byte} {v : Json}, value n l = some (v, r) → Enc l r) ∧
    (∀ {l r : List Byte} {v : List Json}, elements n l = some (v, r) → Enc l r) ∧
    (∀ {l r : List Byte} {v : List (List Char × Json)}, members n l = some (v, r) → Enc l r) := by
  induction n with
  | zero => exact ⟨fun h => by simp [value] at h, fun h => by simp [elements] at h, fun h => by simp [members] at h⟩
  | succ n ih =>
    obtain ⟨i1, i2, i3⟩ := ih
    refine ⟨?_, ?_, ?_⟩
    · intro l r v h
      simp only [value] at h
      cases hs : skipWs l with
      | nil => rw [hs] at h; cases h
      | cons b t =>
        rw [hs] at h
        simp only at h
        have h0 : Enc l (b :: t) := hs ▸ enc_skipWs l
        refine h0.trans ?_
        split at h
        · next hb =>
          split at h
          · next ht => cases h; exact (Enc.eq hb (by decide)).trans (enc_stringTail ht)
          · cases h
        · split at h
          · next hb =>
            refine (Enc.eq hb (by decide)).trans ?_
            split at h
            · cases h
            · next hc =>
              split at h
              · next hd => cases h; exact enc_ws hc hd (by decide)
              · split at h
                · next he => cases h; exact (hc ▸ enc_skipWs t).trans (i2 he)
                · cases h
          · split at h
            · next hb =>
              refine (Enc.eq hb (by decide)).trans ?_
              split at h
              · cases h
              · next hc =>
                split at h
                · next hd => cases h; exact enc_ws hc hd (by decide)
                · split at h
                  · next he => cases h; exact (hc ▸ enc_skipWs t).trans (i3 he)
                  · cases h
            · split at h
              · split at h
                · next ht => cases h; exact enc_name (by decide) ht
                · cases h
              · split at h
                · split at h
                  · next ht => cases h; exact enc_name (by decide) ht
                  · cases h
                · split at h
                  · split at h
                    · next ht => cases h; exact enc_name (by decide) ht
                    · cases h
                  · split at h
                    · next ht => cases h; exact enc_number ht
                    · cases h
    · intro l r v h
      simp only [elements] at h
      split at h
      · cases h
      · next hv =>
        refine (i1 hv).trans ?_
        split at h
        · cases h
        · next hc =>
          split at h
          · next hd => cases h; exact enc_ws hc hd (by decide)
          · split at h
            · next hd =>
              refine (enc_ws hc hd (by decide)).trans ?_
              split at h
              · next he => cases h; exact i2 he
              · cases h
            · cases h
    · intro l r v h
      simp only [members] at h
      split at h
      · cases h
      · next hq =>
        split at h
        · next hd =>
          refine (enc_ws hq hd (by decide)).trans ?_
          split at h
          · cases h
          · next hk =>
            refine (enc_stringTail hk).trans ?_
            split at h
            · cases h
            · next hc =>
              split at h
              · next hd =>
                refine (enc_ws hc hd (by decide)).trans ?_
                split at h
                · cases h
                · next hv =>
                  refine (i1 hv).trans ?_
                  split at h
                  · cases h
                  · next hc2 =>
                    split at h
                    · next hd => cases h; exact enc_ws hc2 hd (by decide)
                    · split at h
                      · next hd =>
                        refine (enc_ws hc2 hd (by decide)).trans ?_
                        split at h
                        · next he => cases h; exact i3 he
                        · cases h
                      · cases h
              · cases h
        · cases h

/-- A JSON text is UTF-8. -/
theorem reads_text {l : List Byte} {v : Json} (h : Reads l v) : isText l = true := by
  obtain ⟨n, r, h1, h2⟩ := h
  obtain ⟨cs, hcs⟩ := ((enc_values n).1 h1).trans (enc_skipWs r)
  rw [h2, List.append_nil] at hcs
  unfold isText
  rw [ByteArray.validateUTF8_eq_true_iff]
  refine ByteArray.IsValidUTF8.intro cs ?_
  rw [hcs]
  rfl

end Argo.Socket
