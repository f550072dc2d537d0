import Verif.Json.Lemmas

set_option autoImplicit false

/-! # What is printed reads back -/

namespace Argo.Json

open Argo
open Argo.Signalk (Str bs)

/-! ## Specification -/

/-- The text is a JSON number. -/
def IsNumber (t : List Byte) : Prop := number t = some (t, [])

mutual

/-- The JSON value of a Go value: byte strings as characters. -/
def meaning : Out → Json
  | .null => .null
  | .bool b => .bool b
  | .num t => .num t
  | .str s => .str (chars s)
  | .arr l => .arr (meanings l)
  | .obj l => .obj (fields l)

def meanings : List Out → List Json
  | [] => []
  | v :: l => meaning v :: meanings l

def fields : List (Str × Out) → List (List Char × Json)
  | [] => []
  | (k, v) :: l => (chars k, meaning v) :: fields l

end

mutual

/-- All numbers in the tree are JSON numbers. -/
def Numbers : Out → Prop
  | .null => True
  | .bool _ => True
  | .num t => IsNumber t
  | .str _ => True
  | .arr l => NumbersL l
  | .obj l => NumbersO l

def NumbersL : List Out → Prop
  | [] => True
  | v :: l => Numbers v ∧ NumbersL l

def NumbersO : List (Str × Out) → Prop
  | [] => True
  | (_, v) :: l => Numbers v ∧ NumbersO l

end

/-! ## Numbers -/

/-- The bytes do not continue a number. -/
def Stop (r : List Byte) : Prop := ∀ b, r.head? = some b → isDigit b = false ∧ b ≠ 46 ∧ b ≠ 101 ∧ b ≠ 69

theorem digits_append {l r : List Byte} (hr : Stop r) :
    (digits (l ++ r)).1 = (digits l).1 ∧ (digits (l ++ r)).2 = (digits l).2 ++ r := by
  unfold digits
  induction l with
  | nil =>
    cases r with
    | nil => exact ⟨rfl, rfl⟩
    | cons b r =>
      have := (hr b rfl).1
      simp [this]
  | cons a l ih =>
    by_cases ha : isDigit a = true
    · simp only [List.cons_append, List.takeWhile_cons, List.dropWhile_cons, ha, if_true]
      exact ⟨congrArg _ ih.1, ih.2⟩
    · simp [ha]

theorem intPart_append {l r : List Byte} (hr : Stop r) {i x : List Byte} (h : intPart l = some (i, x)) :
    intPart (l ++ r) = some (i, x ++ r) := by
  cases l with
  | nil => cases h
  | cons b l =>
    simp only [intPart, List.cons_append] at h ⊢
    split at h
    · rename_i hb; rw [if_pos hb]; cases h; rfl
    · rename_i hb
      rw [if_neg hb]
      split at h
      · rename_i hd
        rw [if_pos hd, (digits_append hr).1, (digits_append hr).2]
        cases h; rfl
      · cases h

theorem fracPart_append {l r : List Byte} (hr : Stop r) {i x : List Byte} (h : fracPart l = some (i, x)) :
    fracPart (l ++ r) = some (i, x ++ r) := by
  cases l with
  | nil =>
    cases h
    cases r with
    | nil => rfl
    | cons b r =>
      simp only [fracPart, List.nil_append]
      rw [if_neg (hr b rfl).2.1]
  | cons b l =>
    simp only [fracPart, List.cons_append] at h ⊢
    split at h
    · rename_i hb
      rw [if_pos hb, (digits_append hr).1, (digits_append hr).2]
      split at h
      · cases h
      · rename_i hd; rw [if_neg hd]; cases h; rfl
    · rename_i hb; rw [if_neg hb]; cases h; rfl

theorem expPart_append {l r : List Byte} (hr : Stop r) {i x : List Byte} (h : expPart l = some (i, x)) :
    expPart (l ++ r) = some (i, x ++ r) := by
  cases l with
  | nil =>
    cases h
    cases r with
    | nil => rfl
    | cons b r =>
      simp only [expPart, List.nil_append]
      rw [if_neg (by rintro (h | h); exact (hr b rfl).2.2.1 h; exact (hr b rfl).2.2.2 h)]
  | cons b l =>
    simp only [expPart, List.cons_append] at h ⊢
    split at h
    · rename_i hb
      rw [if_pos hb]
      cases l with
      | nil => cases h
      | cons s l =>
        simp only [List.cons_append] at h ⊢
        split at h
        · rename_i hs
          rw [if_pos hs, (digits_append hr).1, (digits_append hr).2]
          split at h
          · cases h
          · rename_i hd; rw [if_neg hd]; cases h; rfl
        · rename_i hs
          have := digits_append (l := s :: l) hr
          simp only [List.cons_append] at this
          rw [if_neg hs, this.1, this.2]
          split at h
          · cases h
          · rename_i hd; rw [if_neg hd]; cases h; rfl
    · rename_i hb; rw [if_neg hb]; cases h; rfl

theorem number_append {t r : List Byte} (h : IsNumber t) (hr : Stop r) : number (t ++ r) = some (t, r) := by
  unfold IsNumber at h
  have key : ∀ (m l : List Byte), 
      (match intPart l with
        | none => none
        | some (i, bs) =>
          match fracPart bs with
          | none => none
          | some (f, bs) =>
            match expPart bs with
            | none => none
            | some (e, bs) => some (m ++ i ++ f ++ e, bs)) = some (t, []) →
      (match intPart (l ++ r) with
        | none => none
        | some (i, bs) =>
          match fracPart bs with
          | none => none
          | some (f, bs) =>
            match expPart bs with
            | none => none
            | some (e, bs) => some (m ++ i ++ f ++ e, bs)) = some (t, r) := by
    intro m l h
    cases hi : intPart l with
    | none => rw [hi] at h; cases h
    | some x =>
      rw [hi] at h
      rw [intPart_append hr hi]
      simp only at h ⊢
      cases hf : fracPart x.2 with
      | none => rw [hf] at h; cases h
      | some y =>
        rw [hf] at h
        rw [fracPart_append hr hf]
        simp only at h ⊢
        cases he : expPart y.2 with
        | none => rw [he] at h; cases h
        | some z =>
          rw [he] at h
          rw [expPart_append hr he]
          simp only [Option.some.injEq, Prod.mk.injEq] at h ⊢
          exact ⟨h.1, by rw [h.2]; rfl⟩
  unfold number at h ⊢
  cases t with
  | nil => simp [intPart] at h
  | cons b t =>
    simp only [List.cons_append] at h ⊢
    by_cases hb : b = 45
    · simp only [if_pos hb] at h ⊢
      exact key [b] t h
    · simp only [if_neg hb] at h ⊢
      exact key [] (b :: t) h

/-- A number begins with a digit or a minus sign. -/
theorem number_head {t : List Byte} (h : IsNumber t) : ∃ b l, t = b :: l ∧ (isDigit b = true ∨ b = 45) := by
  unfold IsNumber number at h
  cases t with
  | nil => simp [intPart] at h
  | cons b l =>
    refine ⟨b, l, rfl, ?_⟩
    by_cases hb : b = 45
    · exact Or.inr hb
    · left
      simp only [if_neg hb] at h
      by_cases h0 : b = 48
      · rw [h0]; decide
      · by_cases hd : isDigit b = true
        · exact hd
        · simp [intPart, h0, hd] at h

/-! ## Trees -/

/-- All bytes are insignificant whitespace. -/
def Blank (l : List Byte) : Prop := ∀ b ∈ l, isWs b = true

theorem skip_blank {w : List Byte} (hw : Blank w) (l : List Byte) : skipWs (w ++ l) = skipWs l := by
  induction w with
  | nil => rfl
  | cons b w ih =>
    rw [List.cons_append, skipWs, if_pos (hw b (by simp)), ih (fun x hx => hw x (List.mem_cons_of_mem _ hx))]

theorem skip_of {b : Byte} {l : List Byte} (h : isWs b = false) : skipWs (b :: l) = b :: l := by
  simp [skipWs, h]

theorem stop_of {b : Byte} {l : List Byte} (h : isDigit b = false ∧ b ≠ 46 ∧ b ≠ 101 ∧ b ≠ 69) : Stop (b :: l) := by
  intro c hc
  simp only [List.head?_cons, Option.some.injEq] at hc
  subst hc; exact h

theorem stop_blank {w : List Byte} (hw : Blank w) {b : Byte} {l : List Byte}
    (h : isDigit b = false ∧ b ≠ 46 ∧ b ≠ 101 ∧ b ≠ 69) : Stop (w ++ b :: l) := by
  cases w with
  | nil => exact stop_of h
  | cons c w =>
    have key : ∀ b : Fin 256, isWs (UInt8.ofNat b.val) = true →
        isDigit (UInt8.ofNat b.val) = false ∧ UInt8.ofNat b.val ≠ 46 ∧ UInt8.ofNat b.val ≠ 101 ∧
          UInt8.ofNat b.val ≠ 69 := by decide +kernel
    have := key ⟨c.toNat, c.toNat_lt⟩
    simp only [UInt8.ofNat_toNat] at this
    exact stop_of (this (hw c (by simp)))

/-- The style inserts whitespace only. -/
structure Style.Ok (st : Style) : Prop where
  line : ∀ d, Blank (st.line d)
  colon : Blank st.colon

/-- Reading skips whitespace first. -/
theorem value_blank {w : List Byte} (hw : Blank w) (n : Nat) (l : List Byte) : value n (w ++ l) = value n l := by
  cases n with
  | zero => simp [value]
  | succ n => rw [value, value, skip_blank hw]

theorem elements_blank {w : List Byte} (hw : Blank w) (n : Nat) (l : List Byte) :
    elements n (w ++ l) = elements n l := by
  cases n with
  | zero => simp [elements]
  | succ n => rw [elements, elements, value_blank hw]

theorem members_blank {w : List Byte} (hw : Blank w) (n : Nat) (l : List Byte) :
    members n (w ++ l) = members n l := by
  cases n with
  | zero => simp [members]
  | succ n => rw [members, members, skip_blank hw]

section
variable {st : Style}

/-- The printed value begins with a byte that is neither whitespace nor a closing bracket. -/
theorem layout_head (newer : Bool) (d : Nat) {o : Out} (h : Numbers o) :
    ∃ b l, layout newer st d o = b :: l ∧ isWs b = false ∧ b ≠ 93 ∧ b ≠ 125 := by
  cases o with
  | null => exact ⟨110, [117, 108, 108], by simp only [layout]; decide +kernel, by decide, by decide, by decide⟩
  | bool b =>
    cases b with
    | true => exact ⟨116, [114, 117, 101], by simp only [layout, if_true]; decide +kernel, by decide, by decide, by decide⟩
    | false => exact ⟨102, [97, 108, 115, 101],
        by simp only [layout, Bool.false_eq_true, if_false]; decide +kernel, by decide, by decide, by decide⟩
  | num t =>
    obtain ⟨b, l, rfl, hb⟩ := number_head (by simpa [Numbers] using h)
    refine ⟨b, l, by simp [layout], ?_⟩
    have key : ∀ b : Fin 256, (isDigit (UInt8.ofNat b.val) = true ∨ UInt8.ofNat b.val = 45) →
        isWs (UInt8.ofNat b.val) = false ∧ UInt8.ofNat b.val ≠ 93 ∧ UInt8.ofNat b.val ≠ 125 := by decide +kernel
    have := key ⟨b.toNat, b.toNat_lt⟩
    simp only [UInt8.ofNat_toNat] at this
    exact this hb
  | str s => exact ⟨34, _, by simp [layout, encString]; rfl, by decide, by decide, by decide⟩
  | arr l =>
    cases l with
    | nil => exact ⟨91, _, by simp only [layout]; rfl, by decide, by decide, by decide⟩
    | cons v l => exact ⟨91, _, by simp only [layout, List.cons_append]; rfl, by decide, by decide, by decide⟩
  | obj l =>
    cases l with
    | nil => exact ⟨123, _, by simp only [layout]; rfl, by decide, by decide, by decide⟩
    | cons v l => exact ⟨123, _, by simp only [layout, List.cons_append]; rfl, by decide, by decide, by decide⟩

theorem layoutArr_head (newer : Bool) (d : Nat) {v : Out} {l : List Out} (h : Numbers v) (r : List Byte) :
    ∃ b y, layoutArr newer st d (v :: l) ++ r = b :: y ∧ isWs b = false ∧ b ≠ 93 := by
  obtain ⟨b, x, hb, b1, b2, _⟩ := layout_head (st := st) newer d h
  cases l with
  | nil => exact ⟨b, x ++ r, by simp [layoutArr, hb], b1, b2⟩
  | cons w l => exact ⟨b, _, by simp only [layoutArr, hb, List.cons_append]; rfl, b1, b2⟩

mutual

theorem value_layout (newer : Bool) (hst : st.Ok) : ∀ (o : Out) (d : Nat), Numbers o → ∀ r, Stop r →
    ∃ n, value n (layout newer st d o ++ r) = some (meaning o, r)
  | .null, d, _, r, _ => by
    refine ⟨1, ?_⟩
    have : layout newer st d .null = [110, 117, 108, 108] := by simp only [layout]; decide +kernel
    rw [this]
    simp [value, skipWs, isWs, name, meaning]
  | .bool true, d, _, r, _ => by
    refine ⟨1, ?_⟩
    have : layout newer st d (.bool true) = [116, 114, 117, 101] := by simp only [layout, if_true]; decide +kernel
    rw [this]
    simp [value, skipWs, isWs, name, meaning]
  | .bool false, d, _, r, _ => by
    refine ⟨1, ?_⟩
    have : layout newer st d (.bool false) = [102, 97, 108, 115, 101] := by
      simp only [layout, Bool.false_eq_true, if_false]; decide +kernel
    rw [this]
    simp [value, skipWs, isWs, name, meaning]
  | .num t, d, h, r, hr => by
    have ht : IsNumber t := by simpa [Numbers] using h
    have hn := number_append ht hr
    obtain ⟨b, l, rfl, hb⟩ := number_head ht
    refine ⟨1, ?_⟩
    have key : ∀ b : Fin 256, (isDigit (UInt8.ofNat b.val) = true ∨ UInt8.ofNat b.val = 45) →
        isWs (UInt8.ofNat b.val) = false ∧ UInt8.ofNat b.val ≠ 34 ∧ UInt8.ofNat b.val ≠ 91 ∧ UInt8.ofNat b.val ≠ 123 ∧
          UInt8.ofNat b.val ≠ 116 ∧ UInt8.ofNat b.val ≠ 102 ∧ UInt8.ofNat b.val ≠ 110 := by decide +kernel
    have := key ⟨b.toNat, b.toNat_lt⟩
    simp only [UInt8.ofNat_toNat] at this
    obtain ⟨k0, k1, k2, k3, k4, k5, k6⟩ := this hb
    simp only [layout, meaning, List.cons_append] at hn ⊢
    rw [value, skip_of k0]
    simp only
    rw [if_neg k1, if_neg k2, if_neg k3, if_neg k4, if_neg k5, if_neg k6, hn]
  | .str s, d, _, r, _ => by
    obtain ⟨k, hk⟩ := string_read newer s.length s (Nat.le_refl _) r
    refine ⟨k + 1, ?_⟩
    have e : layout newer st d (.str s) ++ r = 34 :: (encChars newer s.length s ++ 34 :: r) := by
      simp [layout, encString]
    rw [e, value, skip_of (by decide)]
    simp only [if_true]
    rw [hk]
    simp [meaning, chars]
  | .arr [], d, _, r, _ => by
    refine ⟨1, ?_⟩
    have e : layout newer st d (.arr []) ++ r = 91 :: 93 :: r := by simp [layout]
    rw [e, value, skip_of (by decide)]
    simp only
    rw [if_neg (by decide), if_pos (by trivial), skip_of (by decide)]
    simp [meaning, meanings]
  | .arr (v :: l), d, h, r, _ => by
    have hl : NumbersL (v :: l) := by simpa [Numbers] using h
    obtain ⟨n, hn⟩ := elements_layout newer hst v l (d + 1) hl (st.line d) (hst.line d) r
    obtain ⟨b, y, hy, b1, b2⟩ := layoutArr_head (st := st) newer (d + 1) (l := l)
      (by unfold NumbersL at hl; exact hl.1 : Numbers v) (st.line d ++ 93 :: r)
    refine ⟨n + 1, ?_⟩
    have e : layout newer st d (.arr (v :: l)) ++ r =
        91 :: (st.line (d + 1) ++ (layoutArr newer st (d + 1) (v :: l) ++ (st.line d ++ 93 :: r))) := by simp [layout]
    rw [e, value, skip_of (by decide)]
    simp only
    rw [if_neg (by decide), if_pos (by trivial), skip_blank (hst.line _), hy, skip_of b1]
    simp only
    rw [if_neg b2, ← hy, hn]
    simp [meaning]
  | .obj [], d, _, r, _ => by
    refine ⟨1, ?_⟩
    have e : layout newer st d (.obj []) ++ r = 123 :: 125 :: r := by simp [layout]
    rw [e, value, skip_of (by decide)]
    simp only
    rw [if_neg (by decide), if_neg (by decide), if_pos (by trivial), skip_of (by decide)]
    simp [meaning, fields]
  | .obj ((k, v) :: l), d, h, r, _ => by
    have hl : NumbersO ((k, v) :: l) := by simpa [Numbers] using h
    obtain ⟨n, hn⟩ := members_layout newer hst k v l (d + 1) hl (st.line d) (hst.line d) r
    refine ⟨n + 1, ?_⟩
    have e : layout newer st d (.obj ((k, v) :: l)) ++ r =
        123 :: (st.line (d + 1) ++ (layoutObj newer st (d + 1) ((k, v) :: l) ++ (st.line d ++ 125 :: r))) := by
      simp [layout]
    have hx : ∃ y, layoutObj newer st (d + 1) ((k, v) :: l) ++ (st.line d ++ 125 :: r) = 34 :: y := by
      cases l with
      | nil => exact ⟨_, by simp only [layoutObj, encString, List.cons_append]; rfl⟩
      | cons w l => exact ⟨_, by simp only [layoutObj, encString, List.cons_append]; rfl⟩
    obtain ⟨y, hy⟩ := hx
    rw [e, value, skip_of (by decide)]
    simp only
    rw [if_neg (by decide), if_neg (by decide), if_pos (by trivial), skip_blank (hst.line _), hy, skip_of (by decide)]
    simp only
    rw [if_neg (by decide), ← hy, hn]
    simp [meaning]
  termination_by o => sizeOf o

theorem elements_layout (newer : Bool) (hst : st.Ok) : ∀ (v : Out) (l : List Out) (d : Nat), NumbersL (v :: l) →
    ∀ w, Blank w → ∀ r, ∃ n, elements n (layoutArr newer st d (v :: l) ++ (w ++ 93 :: r)) = some (meanings (v :: l), r)
  | v, [], d, h, w, hw, r => by
    obtain ⟨n, hn⟩ := value_layout newer hst v d (by unfold NumbersL at h; exact h.1) (w ++ 93 :: r)
      (stop_blank hw (by decide))
    refine ⟨n + 1, ?_⟩
    have e : layoutArr newer st d [v] = layout newer st d v := by simp [layoutArr]
    rw [e, elements, hn]
    simp only
    rw [skip_blank hw, skip_of (by decide)]
    simp [meanings]
  | v, u :: l, d, h, w, hw, r => by
    obtain ⟨n, hn⟩ := value_layout newer hst v d (by unfold NumbersL at h; exact h.1)
      (44 :: (st.line d ++ (layoutArr newer st d (u :: l) ++ (w ++ 93 :: r)))) (stop_of (by decide))
    obtain ⟨m, hm⟩ := elements_layout newer hst u l d (by unfold NumbersL at h; exact h.2) w hw r
    refine ⟨max n m + 1, ?_⟩
    have e : layoutArr newer st d (v :: u :: l) ++ (w ++ 93 :: r) =
        layout newer st d v ++ 44 :: (st.line d ++ (layoutArr newer st d (u :: l) ++ (w ++ 93 :: r))) := by
      simp [layoutArr]
    rw [e, elements, value_mono (Nat.le_max_left n m) hn]
    simp only
    rw [skip_of (by decide)]
    simp only
    rw [if_neg (by decide), if_pos (by trivial), elements_blank (hst.line d), elements_mono (Nat.le_max_right n m) hm]
    simp [meanings]
  termination_by v l => sizeOf (v :: l)

theorem members_layout (newer : Bool) (hst : st.Ok) : ∀ (k : Str) (v : Out) (l : List (Str × Out)) (d : Nat),
    NumbersO ((k, v) :: l) → ∀ w, Blank w → ∀ r,
    ∃ n, members n (layoutObj newer st d ((k, v) :: l) ++ (w ++ 125 :: r)) = some (fields ((k, v) :: l), r)
  | k, v, [], d, h, w, hw, r => by
    obtain ⟨n, hn⟩ := value_layout newer hst v d (by unfold NumbersO at h; exact h.1) (w ++ 125 :: r)
      (stop_blank hw (by decide))
    obtain ⟨m, hm⟩ := string_read newer k.length k (Nat.le_refl _)
      (58 :: (st.colon ++ (layout newer st d v ++ (w ++ 125 :: r))))
    refine ⟨max n m + 1, ?_⟩
    have e : layoutObj newer st d [(k, v)] ++ (w ++ 125 :: r) =
        34 :: (encChars newer k.length k ++ 34 :: 58 :: (st.colon ++ (layout newer st d v ++ (w ++ 125 :: r)))) := by
      simp [layoutObj, encString]
    rw [e, members, skip_of (by decide)]
    simp only [if_true]
    rw [stringTail_mono (Nat.le_max_right n m) hm]
    simp only
    rw [skip_of (by decide)]
    simp only [if_true]
    rw [value_blank hst.colon, value_mono (Nat.le_max_left n m) hn]
    simp only
    rw [skip_blank hw, skip_of (by decide)]
    simp [fields, chars]
  | k, v, (k', v') :: l, d, h, w, hw, r => by
    obtain ⟨n, hn⟩ := value_layout newer hst v d (by unfold NumbersO at h; exact h.1)
      (44 :: (st.line d ++ (layoutObj newer st d ((k', v') :: l) ++ (w ++ 125 :: r)))) (stop_of (by decide))
    obtain ⟨p, hp⟩ := members_layout newer hst k' v' l d (by unfold NumbersO at h; exact h.2) w hw r
    obtain ⟨m, hm⟩ := string_read newer k.length k (Nat.le_refl _)
      (58 :: (st.colon ++ (layout newer st d v ++ 44 :: (st.line d ++ (layoutObj newer st d ((k', v') :: l) ++ (w ++ 125 :: r))))))
    refine ⟨max n (max m p) + 1, ?_⟩
    have e : layoutObj newer st d ((k, v) :: (k', v') :: l) ++ (w ++ 125 :: r) =
        34 :: (encChars newer k.length k ++ 34 :: 58 :: (st.colon ++ (layout newer st d v ++
          44 :: (st.line d ++ (layoutObj newer st d ((k', v') :: l) ++ (w ++ 125 :: r)))))) := by
      simp [layoutObj, encString]
    rw [e, members, skip_of (by decide)]
    simp only [if_true]
    rw [stringTail_mono (by omega) hm]
    simp only
    rw [skip_of (by decide)]
    simp only [if_true]
    rw [value_blank hst.colon, value_mono (by omega) hn]
    simp only
    rw [skip_of (by decide)]
    simp only
    rw [if_neg (by decide), if_pos (by trivial), members_blank (hst.line d), members_mono (by omega) hp]
    simp [fields, chars]
  termination_by k v l => sizeOf ((k, v) :: l)

end

theorem reads_layout (newer : Bool) (hst : st.Ok) {o : Out} (h : Numbers o) (v : Json) :
    Reads (layout newer st 0 o) v ↔ v = meaning o := by
  have hr : Reads (layout newer st 0 o) (meaning o) := by
    obtain ⟨n, hn⟩ := value_layout newer hst o 0 h [] (fun b hb => by cases hb)
    rw [List.append_nil] at hn
    exact ⟨n, [], hn, rfl⟩
  exact ⟨fun hv => reads_unique hv hr, fun hv => hv ▸ hr⟩

end

theorem compact_ok : compact.Ok := ⟨fun _ b hb => (by cases hb), fun b hb => (by cases hb)⟩

theorem indented_ok : indented.Ok := by
  refine ⟨fun d b hb => ?_, fun b hb => ?_⟩
  · rcases List.mem_cons.mp hb with rfl | hb
    · decide
    · rw [(List.mem_replicate.mp hb).2]; decide
  · rw [List.mem_singleton.mp hb]; decide

/-- What `json.Marshal` prints is a JSON text, and its only value is the value printed. -/
theorem reads_print_iff (newer : Bool) {o : Out} (h : Numbers o) (v : Json) : Reads (print newer o) v ↔ v = meaning o :=
  reads_layout newer compact_ok h v

/-- What `json.MarshalIndent` prints is a JSON text, and its only value is the value printed. -/
theorem reads_indent_iff (newer : Bool) {o : Out} (h : Numbers o) (v : Json) :
    Reads (printIndent newer o) v ↔ v = meaning o :=
  reads_layout newer indented_ok h v

/-! ## Characters of strings -/

/-- A string that is UTF-8 is read as its characters. -/
theorem chars_utf8 (cs : List Char) : chars (cs.flatMap String.utf8EncodeChar) = cs := by
  have key : ∀ (cs : List Char) (n : Nat), (cs.flatMap String.utf8EncodeChar).length ≤ n →
      scalars n (cs.flatMap String.utf8EncodeChar) = cs := by
    intro cs
    induction cs with
    | nil => intro n _; cases n <;> rfl
    | cons c cs ih =>
      intro n hn
      rw [List.flatMap_cons] at hn ⊢
      have hl := encode_length c
      have hpos := c.utf8Size_pos
      have hf := firstChar_encode c (cs.flatMap String.utf8EncodeChar)
      cases he : String.utf8EncodeChar c with
      | nil => rw [he] at hl; simp at hl; omega
      | cons b e =>
        rw [he] at hf hn hl
        simp only [List.cons_append] at hf hn ⊢
        cases n with
        | zero => simp at hn
        | succ n =>
          rw [scalars, hf]
          simp only
          have hd : (b :: (e ++ cs.flatMap String.utf8EncodeChar)).drop c.utf8Size = cs.flatMap String.utf8EncodeChar := by
            rw [← hl, ← List.cons_append, List.drop_left]
          rw [hd, ih n ?_]
          simp only [List.length_cons, List.length_append] at hn
          omega
  exact key cs _ (Nat.le_refl _)

end Argo.Json
