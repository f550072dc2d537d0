import Verif.Nmea2k.Decode

set_option autoImplicit false

/-! # The loop of ParsePacket: inversion, invariants, determinism, termination -/

namespace Argo.Nmea2k

open Argo Argo.Nmea2k.Spec

variable {tbl : List Pgn} {env : Env} {m : RawMessage} {j : Nat} {one : Bool}

/-- `bytes` of the iteration on a field (before `start_byte` is added). -/
def winBytes (len : Nat) (f : Field) : Nat := min ((f.size + 7) / 8) len

/-- `bits` of the iteration on a field. -/
def winBits (len : Nat) (f : Field) : Nat := min (winBytes len f * 8) f.size

/-- The next value of `idx`. -/
def nextIdx (len : Nat) (d : Pgn) (idx : Int) (sb : Nat) : Int :=
  (if idx = (d.fieldList.length : Int) - 1 ∧ 0 < d.repeatingFields ∧ sb < len
    then idx - d.repeatingFields else idx) + 1

theorem nextIdx_noRepeat {len : Nat} {d : Pgn} {idx : Int} {sb : Nat} (h : d.repeatingFields = 0) :
    nextIdx len d idx sb = idx + 1 := by
  unfold nextIdx; rw [if_neg (by omega)]

theorem goIndex_nat {α : Type} (l : List α) (k : Nat) :
    goIndex l (k : Int) = match l[k]? with | some a => .ok a | none => .error .index := by
  unfold goIndex; rw [if_pos (by omega), Int.toNat_natCast]; rfl

theorem goIndex_ok {α : Type} {l : List α} {i : Int} {a : α} (h : goIndex l i = .ok a) :
    0 ≤ i ∧ l[i.toNat]? = some a := by
  unfold goIndex at h
  split at h
  · split at h
    · rename_i h0 _ _ he; injection h with h; subst h; exact ⟨h0, he⟩
    · cases h
  · cases h

theorem goIndex_of_lt {α : Type} {l : List α} {i : Int} (h0 : 0 ≤ i) (h1 : i < l.length) :
    ∃ a, goIndex l i = .ok a ∧ l[i.toNat]? = some a := by
  have hlt : i.toNat < l.length := by omega
  refine ⟨l[i.toNat], ?_, List.getElem?_eq_getElem hlt⟩
  unfold goIndex; rw [if_pos h0, List.getElem?_eq_getElem hlt]

/-- `step` with its tests spelled out. -/
theorem step_eq (s : St) : step tbl env m j one s =
    if s.idx < s.d.fieldList.length then
      match goIndex s.d.fieldList s.idx with
      | .error e => .error e
      | .ok field =>
        if s.sb > m.data.vis.length ∨ winBytes m.data.vis.length field + s.sb > m.data.vis.length
        then .ok (.inr ⟨m, s.index, s.data⟩)
        else
          match decodeField env m s.d s.data field s.sb (winBytes m.data.vis.length field + s.sb)
              s.bit (winBits m.data.vis.length field) with
          | .error e => .error e
          | .ok r =>
            match selectVariant tbl m j one s field (winBytes m.data.vis.length field + s.sb)
                (winBits m.data.vis.length field) r with
            | .error e => .error e
            | .ok t =>
              .ok (.inl ⟨t.1, t.2.1, nextIdx m.data.vis.length t.2.1 s.idx
                  (s.sb + (winBits m.data.vis.length field + s.bit) / 8), s.odx + 1,
                s.sb + (winBits m.data.vis.length field + s.bit) / 8,
                (s.bit + winBits m.data.vis.length field) % 8, t.2.2,
                s.data.set s.odx (r.getD .nil)⟩)
    else .ok (.inr ⟨m, s.index, s.data⟩) := by
  unfold step
  by_cases hidx : s.idx < s.d.fieldList.length
  · rw [if_neg (by simpa using hidx), if_pos hidx]
    cases goIndex s.d.fieldList s.idx with
    | error e => rfl
    | ok field =>
      by_cases hw : s.sb > m.data.vis.length ∨
          winBytes m.data.vis.length field + s.sb > m.data.vis.length
      · simp only [bind, Except.bind]
        rw [if_pos hw]
        exact if_pos hw
      · simp only [bind, Except.bind]
        rw [if_neg hw]
        refine (if_neg hw).trans ?_
        simp only [winBits, winBytes, Slice.len, nextIdx]
        generalize decodeField env m s.d s.data field s.sb _ s.bit _ = r
        cases r with
        | error e => rfl
        | ok r =>
          simp only
          generalize selectVariant tbl m j one s field _ _ r = t
          cases t <;> rfl
  · rw [if_pos hidx, if_neg hidx]; rfl

/-- What a continuing iteration did. -/
theorem step_inl {s s' : St} (h : step tbl env m j one s = .ok (.inl s')) :
    ∃ field r i' d' index', s.idx < s.d.fieldList.length ∧
      goIndex s.d.fieldList s.idx = .ok field ∧
      s.sb ≤ m.data.vis.length ∧ winBytes m.data.vis.length field + s.sb ≤ m.data.vis.length ∧
      decodeField env m s.d s.data field s.sb (winBytes m.data.vis.length field + s.sb) s.bit
        (winBits m.data.vis.length field) = .ok r ∧
      selectVariant tbl m j one s field (winBytes m.data.vis.length field + s.sb)
        (winBits m.data.vis.length field) r = .ok (i', d', index') ∧
      s' = ⟨i', d', nextIdx m.data.vis.length d' s.idx
          (s.sb + (winBits m.data.vis.length field + s.bit) / 8), s.odx + 1,
        s.sb + (winBits m.data.vis.length field + s.bit) / 8,
        (s.bit + winBits m.data.vis.length field) % 8, index',
        s.data.set s.odx (r.getD .nil)⟩ := by
  rw [step_eq] at h
  split at h
  · rename_i hidx
    split at h
    · cases h
    · rename_i field hf
      split at h
      · cases h
      · rename_i hw
        split at h
        · cases h
        · rename_i r hr
          split at h
          · cases h
          · rename_i t hv
            injection h with h; injection h with h
            exact ⟨field, r, t.1, t.2.1, t.2.2, hidx, hf, by omega, by omega, hr, hv, h.symm⟩
  · cases h

/-- What a returning iteration did. -/
theorem step_inr {s : St} {p : Parsed} (h : step tbl env m j one s = .ok (.inr p)) :
    p = ⟨m, s.index, s.data⟩ ∧
      (¬ s.idx < s.d.fieldList.length ∨
        ∃ field, s.idx < s.d.fieldList.length ∧ goIndex s.d.fieldList s.idx = .ok field ∧
          (s.sb > m.data.vis.length ∨
            winBytes m.data.vis.length field + s.sb > m.data.vis.length)) := by
  rw [step_eq] at h
  split at h
  · rename_i hidx
    split at h
    · cases h
    · rename_i field hf
      split at h
      · rename_i hw
        injection h with h; injection h with h
        exact ⟨h.symm, Or.inr ⟨field, hidx, hf, hw⟩⟩
      · split at h
        · cases h
        · split at h <;> cases h
  · rename_i hidx
    injection h with h; injection h with h
    exact ⟨h.symm, Or.inl hidx⟩

/-- An iteration panics only through the index, the decoder or the variant search. -/
theorem step_error {s : St} {e : Panic} (h : step tbl env m j one s = .error e) :
    s.idx < s.d.fieldList.length ∧
    (goIndex s.d.fieldList s.idx = .error e ∨
     ∃ field, goIndex s.d.fieldList s.idx = .ok field ∧
      s.sb ≤ m.data.vis.length ∧ winBytes m.data.vis.length field + s.sb ≤ m.data.vis.length ∧
      (decodeField env m s.d s.data field s.sb (winBytes m.data.vis.length field + s.sb) s.bit
          (winBits m.data.vis.length field) = .error e ∨
       ∃ r, decodeField env m s.d s.data field s.sb (winBytes m.data.vis.length field + s.sb) s.bit
          (winBits m.data.vis.length field) = .ok r ∧
        selectVariant tbl m j one s field (winBytes m.data.vis.length field + s.sb)
          (winBits m.data.vis.length field) r = .error e)) := by
  rw [step_eq] at h
  split at h
  · rename_i hidx
    refine ⟨hidx, ?_⟩
    split at h
    · rename_i hf; injection h with h; subst h; exact Or.inl hf
    · rename_i field hf
      split at h
      · cases h
      · rename_i hw
        refine Or.inr ⟨field, hf, by omega, by omega, ?_⟩
        split at h
        · rename_i hr; injection h with h; subst h; exact Or.inl hr
        · rename_i r hr
          refine Or.inr ⟨r, hr, ?_⟩
          split at h
          · rename_i hv; injection h with h; subst h; exact hv
          · cases h
  · cases h

/-- An iteration that neither panics nor returns, from its parts. -/
theorem step_cont {s : St} {field : Field} {r : Res? Val} {i' index' : Nat} {d' : Pgn}
    (hidx : s.idx < s.d.fieldList.length) (hf : goIndex s.d.fieldList s.idx = .ok field)
    (hw : winBytes m.data.vis.length field + s.sb ≤ m.data.vis.length)
    (hr : decodeField env m s.d s.data field s.sb (winBytes m.data.vis.length field + s.sb) s.bit
        (winBits m.data.vis.length field) = .ok r)
    (hv : selectVariant tbl m j one s field (winBytes m.data.vis.length field + s.sb)
        (winBits m.data.vis.length field) r = .ok (i', d', index')) :
    step tbl env m j one s = .ok (.inl ⟨i', d', nextIdx m.data.vis.length d' s.idx
          (s.sb + (winBits m.data.vis.length field + s.bit) / 8), s.odx + 1,
        s.sb + (winBits m.data.vis.length field + s.bit) / 8,
        (s.bit + winBits m.data.vis.length field) % 8, index',
        s.data.set s.odx (r.getD .nil)⟩) := by
  rw [step_eq, if_pos hidx, hf]
  simp only
  rw [if_neg (by omega), hr]
  simp only
  rw [hv]

/-! ## Running -/

theorem run_mono {n k : Nat} {s : St} {r : GoM Parsed} (h : run tbl env m j one n s = some r) :
    run tbl env m j one (n + k) s = some r := by
  induction n generalizing s with
  | zero => simp [run] at h
  | succ n ih =>
    have e : n + 1 + k = (n + k) + 1 := by omega
    rw [e]
    unfold run at h ⊢
    cases hs : step tbl env m j one s with
    | error e => rw [hs] at h; exact h
    | ok t =>
      rw [hs] at h
      cases t with
      | inl s' => exact ih h
      | inr p => exact h

theorem run_det {n n' : Nat} {s : St} {r r' : GoM Parsed} (h : run tbl env m j one n s = some r)
    (h' : run tbl env m j one n' s = some r') : r = r' := by
  have h1 := run_mono (k := n') h
  have h2 := run_mono (k := n) h'
  rw [Nat.add_comm] at h2
  rw [h1] at h2
  injection h2

/-- Invariant rule: a property kept by every continuing iteration holds in the state in which the
run returns or panics. -/
theorem run_inv (P : St → Prop)
    (hstep : ∀ s s', P s → step tbl env m j one s = .ok (.inl s') → P s')
    {n : Nat} {s : St} {r : GoM Parsed} (hP : P s) (h : run tbl env m j one n s = some r) :
    ∃ s', P s' ∧ (∀ p, r = .ok p → step tbl env m j one s' = .ok (.inr p)) ∧
      (∀ e, r = .error e → step tbl env m j one s' = .error e) := by
  induction n generalizing s with
  | zero => simp [run] at h
  | succ n ih =>
    unfold run at h
    cases hs : step tbl env m j one s with
    | error e =>
      rw [hs] at h; injection h with h; subst h
      exact ⟨s, hP, (by intro p hp; cases hp), by intro e' he; injection he with he; rw [← he]; exact hs⟩
    | ok t =>
      rw [hs] at h
      cases t with
      | inl s' => exact ih (hstep s s' hP hs) h
      | inr p =>
        injection h with h; subst h
        exact ⟨s, hP, by intro p' hp; injection hp with hp; rw [← hp]; exact hs,
          by intro e he; cases he⟩

/-- The initial state of the loop. -/
def initSt (i : Nat) (d : Pgn) : St := ⟨i, d, 0, 0, 0, 0, i, []⟩

/-- `ParsePacket` in terms of the loop, when the table is not empty. -/
theorem ParsePacket_iff {i jj : Nat} {d q : Pgn} {r : GoM Parsed}
    (hf : first tbl m.pgn = .ok (i, d)) (hl : last tbl m.pgn = .ok (jj, q)) :
    ParsePacket tbl env m r ↔ ∃ n, run tbl env m jj (i == jj) n (initSt i d) = some r := by
  unfold ParsePacket parsePacketN
  rw [hf, hl]
  rfl

/-- ParsePacket has at most one outcome. -/
theorem ParsePacket_det {r r' : GoM Parsed} (h : ParsePacket tbl env m r)
    (h' : ParsePacket tbl env m r') : r = r' := by
  obtain ⟨n, hn⟩ := h
  obtain ⟨n', hn'⟩ := h'
  unfold parsePacketN at hn hn'
  cases hf : first tbl m.pgn with
  | error e =>
    simp only [hf] at hn hn'
    rw [hn] at hn'; injection hn'
  | ok t =>
    cases hl : last tbl m.pgn with
    | error e =>
      simp only [hf, hl] at hn hn'
      rw [hn] at hn'; injection hn'
    | ok u =>
      simp only [hf, hl] at hn hn'
      exact run_det hn hn'

/-! ## Variant search -/

theorem variantLoop_bounds {res : Res} {idx : Int} {sb stop bit bits : Nat} :
    ∀ {fuel i : Nat} {d : Pgn} {field : Field} {data : Val} {i' : Nat} {d' : Pgn},
      variantLoop tbl m res idx sb stop bit bits fuel i d field data = .ok (i', d') →
      i ≤ i' ∧ i' ≤ i + fuel ∧ (i' = i → d' = d) ∧
      (i' ≠ i → tbl[i']? = some d' ∧ idx < d'.fieldList.length) := by
  intro fuel
  induction fuel with
  | zero =>
    intro i d field data i' d' h
    simp only [variantLoop] at h
    injection h with h; injection h with h1 h2
    subst h1 h2; simp
  | succ fuel ih =>
    intro i d field data i' d' h
    unfold variantLoop at h
    simp only [bind, Except.bind] at h
    split at h
    · cases h
    · rename_i data' _
      split at h
      · cases h
      · split at h
        · split at h
          · simp only [pure, Except.pure] at h
            injection h with h; injection h with h1 h2
            subst h1 h2; simp
          · split at h
            · cases h
            · rename_i dd hd
              split at h
              · cases h
              · rename_i ff hff
                obtain ⟨h1, h2, h3, h4⟩ := ih h
                have hd := goIndex_ok hd
                have hff := goIndex_ok hff
                have hi : ((i : Int) + 1).toNat = i + 1 := by omega
                rw [hi] at hd
                refine ⟨by omega, by omega, by omega, fun _ => ?_⟩
                by_cases e : i' = i + 1
                · rw [h3 e, e]
                  refine ⟨hd.2, ?_⟩
                  have : idx.toNat < dd.fieldList.length := by
                    rcases Nat.lt_or_ge idx.toNat dd.fieldList.length with h | h
                    · exact h
                    · rw [List.getElem?_eq_none h] at hff; cases hff.2
                  omega
                · exact h4 e
        · cases h
      · simp only [pure, Except.pure] at h
        injection h with h; injection h with h1 h2
        subst h1 h2; simp

theorem selectVariant_bounds {s : St} {field : Field} {stop bits : Nat} {r : Res? Val}
    {i' index' : Nat} {d' : Pgn}
    (h : selectVariant tbl m j one s field stop bits r = .ok (i', d', index')) :
    s.i ≤ i' ∧ i' ≤ max s.i (j + 1) ∧ (i' = s.i → d' = s.d) ∧
    (i' ≠ s.i → tbl[i']? = some d' ∧ s.idx < d'.fieldList.length) ∧
    (one = true → i' = s.i ∧ d' = s.d ∧ index' = s.index) ∧
    (index' = i' ∨ index' = s.index ∧ i' = s.i) := by
  unfold selectVariant at h
  split at h
  · rename_i v
    split at h
    · injection h with h; injection h with h1 h2; injection h2 with h2 h3
      subst h1 h2 h3
      refine ⟨by omega, by omega, fun _ => rfl, fun h => absurd rfl h, fun _ => ⟨rfl, rfl, rfl⟩,
        Or.inr ⟨rfl, rfl⟩⟩
    · rename_i ho
      simp only [bind, Except.bind] at h
      split at h
      · cases h
      · rename_i t ht
        obtain ⟨i2, d2⟩ := t
        simp only [pure, Except.pure] at h
        injection h with h; injection h with h1 h2; injection h2 with h2 h3
        subst h1 h2 h3
        obtain ⟨b1, b2, b3, b4⟩ := variantLoop_bounds ht
        exact ⟨b1, by omega, b3, b4, fun h => absurd h ho, Or.inl rfl⟩
  · injection h with h; injection h with h1 h2; injection h2 with h2 h3
    subst h1 h2 h3
    refine ⟨by omega, by omega, fun _ => rfl, fun h => absurd rfl h, fun _ => ⟨rfl, rfl, rfl⟩,
      Or.inr ⟨rfl, rfl⟩⟩

end Argo.Nmea2k
