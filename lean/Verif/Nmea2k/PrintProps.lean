import Verif.Nmea2k.Full

set_option autoImplicit false

/-! # C51: Print -/

namespace Argo.Nmea2k

open Argo Argo.Nmea2k.Spec

variable {tbl : List Pgn} {env : Env} {m : RawMessage} {j : Nat} {one : Bool}

namespace Spec

/-- The lines Print should produce for the first `n` entries: number, name of the field of the entry
and value; entries without a value only when `verbose`. -/
def lines (d : Pgn) (dm : DataMap) (verbose : Bool) (n : Nat) : List (Nat × String × Val) :=
  (List.range n).flatMap fun k =>
    if dm.get k ≠ .nil ∨ verbose = true then [(k, ((entryOf d k).map (·.name)).getD "", dm.get k)] else []

end Spec

theorem printLoop_eq {d : Pgn} {dm : DataMap} {verbose : Bool}
    (hR : d.repeatingFields ≤ d.fieldList.length) :
    ∀ (n i : Nat) (jj : Int), (∀ k, k < i + n → entryField d.fieldList.length d.repeatingFields k < d.fieldList.length) →
      (n ≠ 0 → jj = entryField d.fieldList.length d.repeatingFields i) →
      printLoop d dm verbose n i jj = .ok ((List.range' i n).flatMap fun k =>
        if dm.get k ≠ .nil ∨ verbose = true then
          [(k, ((entryOf d k).map (·.name)).getD "", dm.get k)] else []) := by
  intro n
  induction n with
  | zero => intro i jj _ _; rfl
  | succ n ih =>
    intro i jj hlt hj
    have hj := hj (by omega)
    have hi := hlt i (by omega)
    obtain ⟨f, hf, hf2⟩ := goIndex_of_lt (l := d.fieldList) (i := jj) (by omega) (by omega)
    have hto : jj.toNat = entryField d.fieldList.length d.repeatingFields i := by omega
    rw [hto] at hf2
    have hfe : entryOf d i = some f := hf2
    have hnext : n ≠ 0 → (if 0 < d.repeatingFields ∧ jj = (d.fieldList.length : Int) - 1
        then jj - d.repeatingFields else jj) + 1 =
        (entryField d.fieldList.length d.repeatingFields (i + 1) : Int) := by
      intro hn
      split
      · rename_i h
        rw [entryField_last h.1 hR (by omega)]; omega
      · rename_i h
        by_cases hl : entryField d.fieldList.length d.repeatingFields i + 1 < d.fieldList.length
        · rw [entryField_next hR hl]; omega
        · exfalso
          have h0 : d.repeatingFields = 0 := by omega
          have := hlt (i + 1) (by omega)
          unfold entryField at this hl
          rw [if_pos (Or.inl h0)] at this hl
          omega
    have hrest := ih (i + 1) _ (fun k hk => hlt k (by omega)) hnext
    unfold printLoop
    rw [List.range'_succ, List.flatMap_cons]
    simp only [bind, Except.bind, pure, Except.pure] at hrest ⊢
    by_cases hc : dm.get i ≠ .nil ∨ verbose = true
    · rw [if_pos hc, if_pos hc, hf]
      simp only [hfe, Option.map_some, Option.getD_some]
      rw [hrest]
    · rw [if_neg hc, if_neg hc]
      rw [hrest]

theorem print_eq {p : Parsed} {d : Pgn} {verbose : Bool} (hd : tbl[p.index]? = some d)
    (hR : d.repeatingFields ≤ d.fieldList.length)
    (hN : ∀ k, k < p.data.length → entryField d.fieldList.length d.repeatingFields k < d.fieldList.length) :
    print tbl p verbose = .ok (d.description, Spec.lines d p.data verbose p.data.length) := by
  unfold print
  rw [goIndex_nat, hd]
  simp only [bind, Except.bind]
  rw [printLoop_eq hR _ 0 0 (by simpa using hN)]
  · simp only [pure, Except.pure, Spec.lines, List.range_eq_range']
  · intro hn
    unfold entryField
    by_cases h0 : d.repeatingFields = 0
    · rw [if_pos (Or.inl h0)]; rfl
    · rw [if_pos (Or.inr (by omega))]; rfl

/-- C51: for a PGN with one definition, Print of a parsed message does not panic; it prints the
definition's description and, entry by entry, the name of the field that entry was decoded from
with its value. -/
theorem C51_print {i : Nat} {d : Pgn} (ho : onlyDefinition tbl m.pgn i d)
    (hR : d.repeatingFields ≤ d.fieldList.length) {p : Parsed} (h : ParsePacket tbl env m (.ok p))
    (verbose : Bool) :
    print tbl p verbose = .ok (d.description, Spec.lines d p.data verbose p.data.length) ∧
    ∀ k, k < p.data.length → ∃ f r dm sb stop bit bits, entryOf d k = some f ∧
      decodeField env m d dm f sb stop bit bits = .ok r ∧ p.data.get k = r.getD .nil := by
  obtain ⟨h1, h2, h3⟩ := one_result ho hR h
  refine ⟨print_eq (by rw [h1]; exact ho.1) hR ?_, h3⟩
  intro k hk
  obtain ⟨f, _, _, _, _, _, _, hf, _⟩ := h3 k hk
  unfold entryOf at hf
  rcases Nat.lt_or_ge (entryField d.fieldList.length d.repeatingFields k) d.fieldList.length with h | h
  · exact h
  · rw [List.getElem?_eq_none h] at hf; cases hf

/-! ## Several definitions -/

/-- No '=' constraint in the repeating group, which lies in the field list. -/
def noMustInGroup (d : Pgn) : Bool :=
  decide (d.repeatingFields ≤ d.fieldList.length) &&
  (d.fieldList.drop (d.fieldList.length - d.repeatingFields)).all (fun f =>
    match f.units with | .must _ => false | _ => true)

/-- The definition changes only at a field with an '=' constraint. -/
theorem variantLoop_must {res : Res} {idx : Int} {sb stop bit bits fuel i : Nat} {d : Pgn}
    {field : Field} {data : Val} {i' : Nat} {d' : Pgn} (hm : ∀ n, field.units ≠ .must n)
    (h : variantLoop tbl m res idx sb stop bit bits fuel i d field data = .ok (i', d')) :
    i' = i ∧ d' = d := by
  cases fuel with
  | zero =>
    simp only [variantLoop] at h
    injection h with h; injection h with h1 h2; exact ⟨h1.symm, h2.symm⟩
  | succ fuel =>
    unfold variantLoop at h
    simp only [bind, Except.bind] at h
    split at h
    · cases h
    · split at h
      · cases h
      · rename_i v hv; exact absurd hv (hm v)
      · simp only [pure, Except.pure] at h
        injection h with h; injection h with h1 h2; exact ⟨h1.symm, h2.symm⟩

theorem selectVariant_must {s : St} {field : Field} {stop bits : Nat} {r : Res? Val}
    {i' index' : Nat} {d' : Pgn} (hm : ∀ n, field.units ≠ .must n)
    (h : selectVariant tbl m j one s field stop bits r = .ok (i', d', index')) :
    i' = s.i ∧ d' = s.d := by
  unfold selectVariant at h
  split at h
  · split at h
    · injection h with h; injection h with h1 h2; injection h2 with h2 h3
      exact ⟨h1.symm, h2.symm⟩
    · simp only [bind, Except.bind] at h
      split at h
      · cases h
      · rename_i t ht
        obtain ⟨i2, d2⟩ := t
        simp only [pure, Except.pure] at h
        injection h with h; injection h with h1 h2; injection h2 with h2 h3
        have := variantLoop_must hm ht
        exact ⟨by omega, by rw [← h2]; exact this.2⟩
  · injection h with h; injection h with h1 h2; injection h2 with h2 h3
    exact ⟨h1.symm, h2.symm⟩

/-- Invariant of any run: the index is that of the current definition, and the loop index tracks the
number of entries with respect to the current definition. -/
structure AnyInv (tbl : List Pgn) (s : St) : Prop where
  index_ : s.index = s.i
  def_ : tbl[s.i]? = some s.d
  track : Track s.d.fieldList.length s.d.repeatingFields s.idx s.odx
  keys : s.data.map Prod.fst = List.range s.odx

theorem anyInv_step (hg : ∀ d ∈ tbl, noMustInGroup d = true) {s s' : St} (h : AnyInv tbl s)
    (hs : step tbl env m j one s = .ok (.inl s')) : AnyInv tbl s' := by
  obtain ⟨field, r, i', d', index', hidx, hf, hsb, hw, hr, hv, rfl⟩ := step_inl hs
  obtain ⟨_, _, v3, v4, _, v6⟩ := selectVariant_bounds hv
  obtain ⟨hix, hd, ht, hk⟩ := h
  have hd' : tbl[i']? = some d' := by
    by_cases e : i' = s.i
    · rw [e, v3 e]; exact hd
    · exact (v4 e).1
  have hg' := hg d' (List.mem_of_getElem? hd')
  have hR' : d'.repeatingFields ≤ d'.fieldList.length := by
    simp only [noMustInGroup, Bool.and_eq_true, decide_eq_true_eq] at hg'; exact hg'.1
  have ht' : Track d'.fieldList.length d'.repeatingFields s.idx s.odx ∧ s.idx < d'.fieldList.length := by
    by_cases e : i' = s.i
    · rw [v3 e]; exact ⟨ht, hidx⟩
    · have hlt := (v4 e).2
      refine ⟨?_, hlt⟩
      rcases ht with ⟨t1, t2⟩ | ⟨t1, t2, t3⟩
      · left; exact ⟨t1, by omega⟩
      · exfalso
        rcases t3 with t3 | ⟨t3, t4, t5⟩
        · omega
        · apply e
          refine (selectVariant_must ?_ hv).1
          intro n hn
          have hgs := hg s.d (List.mem_of_getElem? hd)
          simp only [noMustInGroup, Bool.and_eq_true, decide_eq_true_eq] at hgs
          have hfo := goIndex_ok hf
          have hmem : field ∈ s.d.fieldList.drop (s.d.fieldList.length - s.d.repeatingFields) := by
            have : (s.d.fieldList.drop (s.d.fieldList.length - s.d.repeatingFields))[
                s.idx.toNat - (s.d.fieldList.length - s.d.repeatingFields)]? = some field := by
              rw [List.getElem?_drop]
              rw [show s.d.fieldList.length - s.d.repeatingFields +
                (s.idx.toNat - (s.d.fieldList.length - s.d.repeatingFields)) = s.idx.toNat by omega]
              exact hfo.2
            exact List.mem_of_getElem? this
          have := List.all_eq_true.mp hgs.2 field hmem
          rw [hn] at this
          cases this
  have hnew : s.odx ∉ s.data.map Prod.fst := by rw [hk]; simp
  have hset := DataMap.set_new (r.getD .nil) hnew
  refine ⟨?_, hd', ht'.1.next hR' ht'.2, ?_⟩
  · simp only; rcases v6 with h | ⟨h1, h2⟩ <;> omega
  · simp only
    rw [hset, List.map_append, hk, List.range_succ]; rfl

theorem table_noMustInGroup : ∀ d ∈ Table.pgnList, noMustInGroup d = true := by
  have : Table.pgnList.all noMustInGroup = true := by decide +kernel
  exact List.all_eq_true.mp this

/-- What every result has, whatever the number of definitions. -/
theorem any_result (hg : ∀ d ∈ tbl, noMustInGroup d = true) {p : Parsed}
    (h : ParsePacket tbl env m (.ok p)) :
    ∃ d, tbl[p.index]? = some d ∧
      ∀ k, k < p.data.length →
        entryField d.fieldList.length d.repeatingFields k < d.fieldList.length := by
  have hne : tbl ≠ [] := by
    rintro rfl
    obtain ⟨n, hn⟩ := h
    simp [parsePacketN, first, firstFrom] at hn
  obtain ⟨i, d, hf, hd, _⟩ := C33_first tbl m.pgn hne
  obtain ⟨jj, q, hl, _, _⟩ := C33_last tbl m.pgn hne
  rw [ParsePacket_iff hf hl] at h
  obtain ⟨n, hn⟩ := h
  obtain ⟨s', hP, hok, _⟩ := run_inv (AnyInv tbl) (fun s s' hs hst => anyInv_step hg hs hst)
    ⟨rfl, hd, Or.inl ⟨rfl, by simp [initSt]⟩, rfl⟩ hn
  obtain ⟨he, _⟩ := step_inr (hok p rfl)
  subst he
  have hlen : s'.data.length = s'.odx := by
    have := congrArg List.length hP.keys; simpa using this
  refine ⟨s'.d, by simp only [hP.index_]; exact hP.def_, ?_⟩
  have hgs := hg s'.d (List.mem_of_getElem? hP.def_)
  simp only [noMustInGroup, Bool.and_eq_true, decide_eq_true_eq] at hgs
  intro k hk
  simp only [hlen] at hk
  exact hP.track.entries hgs.1 k hk

/-- C51 for the shipped table and any number of definitions: Print of a parsed message never
panics, and lists the entries under the names of the fields of the definition the result refers
to. -/
theorem C51_shipped {p : Parsed} (h : ParsePacket Table.pgnList env m (.ok p)) (verbose : Bool) :
    ∃ d, Table.pgnList[p.index]? = some d ∧
      print Table.pgnList p verbose = .ok (d.description, Spec.lines d p.data verbose p.data.length) := by
  obtain ⟨d, hd, hN⟩ := any_result table_noMustInGroup h
  have hg := table_noMustInGroup d (List.mem_of_getElem? hd)
  simp only [noMustInGroup, Bool.and_eq_true, decide_eq_true_eq] at hg
  exact ⟨d, hd, print_eq hd hg.1 hN⟩

/-- Without a parsed message behind it, Print can panic: more entries than fields. -/
theorem print_needs_parsed : print Table.pgnList
    ⟨⟨0, 127245, 0, 0, 0, ⟨[], []⟩⟩, 76, (List.range 6).map (fun k => (k, .u64 1))⟩ false = .error .index := by
  decide +kernel

/-- A parsed message to which C51 applies: 127501 with two repetitions in the second byte. -/
example : onlyDefinition Table.pgnList 127501 87 Table.p87 ∧
    Table.p87.repeatingFields ≤ Table.p87.fieldList.length ∧
    (parsePacketN Table.pgnList ⟨fun _ _ => "", fun _ => "", fun _ _ _ => ""⟩
      ⟨0, 127501, 0, 0, 0, ⟨[7, 0x1B], []⟩⟩ 100).map (fun r => match r with
        | .ok p => p.data | .error _ => []) =
      some [(0, .u64 7), (1, .u64 3), (2, .u64 2), (3, .u64 1), (4, .u64 0)] :=
  ⟨onlyB_spec (d := Table.p87) (by decide +kernel) (by decide +kernel), by decide +kernel,
    by decide +kernel⟩

end Argo.Nmea2k
