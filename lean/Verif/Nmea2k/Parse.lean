import Verif.Nmea2k.Loop

set_option autoImplicit false

/-! # ParsePacket: termination (C45), shape (C49), unknown PGNs (C48) -/

namespace Argo.Nmea2k

open Argo Argo.Nmea2k.Spec

variable {tbl : List Pgn} {env : Env} {m : RawMessage} {j : Nat} {one : Bool}

/-! ## Termination -/

/-- A definition whose repeating group, if any, lies within the field list and contains a field of
positive size. -/
def goodRepeat (d : Pgn) : Bool :=
  d.repeatingFields == 0 ||
    (decide (d.repeatingFields ≤ d.fieldList.length) &&
      (d.fieldList.drop (d.fieldList.length - d.repeatingFields)).any (fun f => decide (0 < f.size)))

/-- Distance to the next field of positive size, going around once if there is none ahead. -/
def dist (d : Pgn) (k : Nat) : Nat :=
  let t := (d.fieldList.drop k).findIdx (fun f => decide (0 < f.size))
  if t < d.fieldList.length - k then t else t + d.fieldList.length + 1

theorem dist_wrap {d : Pgn} (hg : goodRepeat d = true) (hr : 0 < d.repeatingFields) :
    dist d (d.fieldList.length - d.repeatingFields) ≤ d.fieldList.length := by
  unfold goodRepeat at hg
  simp only [Bool.or_eq_true, beq_iff_eq, Bool.and_eq_true, decide_eq_true_eq] at hg
  rcases hg with h | ⟨h1, h2⟩
  · omega
  · unfold dist
    have : (d.fieldList.drop (d.fieldList.length - d.repeatingFields)).findIdx
        (fun f => decide (0 < f.size)) <
        (d.fieldList.drop (d.fieldList.length - d.repeatingFields)).length := by
      rw [List.findIdx_lt_length]
      simpa [List.any_eq_true] using h2
    rw [List.length_drop] at this
    simp only
    rw [if_pos this]
    omega

theorem dist_step {d : Pgn} {k : Nat} {f : Field} (hf : d.fieldList[k]? = some f)
    (hz : f.size = 0) : dist d (k + 1) < dist d k := by
  have hk : k < d.fieldList.length := by
    rcases Nat.lt_or_ge k d.fieldList.length with h | h
    · exact h
    · rw [List.getElem?_eq_none h] at hf; cases hf
  have hfe : d.fieldList[k] = f := by
    rw [List.getElem?_eq_getElem hk] at hf; injection hf
  unfold dist
  rw [List.drop_eq_getElem_cons hk, List.findIdx_cons, hfe]
  have : decide (0 < f.size) = false := by simp [hz]
  simp only [this, cond_false]
  generalize (d.fieldList.drop (k + 1)).findIdx (fun f => decide (0 < f.size)) = t
  split <;> split <;> omega

theorem dist_empty {d : Pgn} {k : Nat} : dist d k ≤ 2 * d.fieldList.length + 1 := by
  unfold dist
  have : (d.fieldList.drop k).findIdx (fun f => decide (0 < f.size)) ≤ (d.fieldList.drop k).length :=
    List.findIdx_le_length
  rw [List.length_drop] at this
  simp only
  split <;> omega

/-- Third component of the measure. -/
def dist' (len : Nat) (d : Pgn) (k : Nat) : Nat :=
  if len = 0 then d.fieldList.length - k else dist d k

/-- Every run of the loop from a state inside a well-formed table finishes. -/
theorem run_terminates (hgood : ∀ d ∈ tbl, goodRepeat d = true) (s : St)
    (hd : goodRepeat s.d = true) (hbit : s.bit < 8) :
    ∃ n r, run tbl env m j one n s = some r := by
  -- lexicographic measure: definitions left, bits left, distance
  have main : ∀ (a b c : Nat) (s : St), tbl.length + j + 2 - s.i = a →
      8 * m.data.vis.length + 8 - (8 * s.sb + s.bit) = b → dist' m.data.vis.length s.d s.idx.toNat = c →
      goodRepeat s.d = true → s.bit < 8 → ∃ n r, run tbl env m j one n s = some r := by
    intro a
    induction a using Nat.strong_induction_on with
    | _ a iha =>
      intro b
      induction b using Nat.strong_induction_on with
      | _ b ihb =>
        intro c
        induction c using Nat.strong_induction_on with
        | _ c ihc =>
          intro s ha hb hc hd hbit
          cases hs : step tbl env m j one s with
          | error e => exact ⟨1, .error e, by simp [run, hs]⟩
          | ok t =>
            cases t with
            | inr p => exact ⟨1, .ok p, by simp [run, hs]⟩
            | inl s' =>
              suffices h : ∃ n r, run tbl env m j one n s' = some r by
                obtain ⟨n, r, h⟩ := h
                exact ⟨n + 1, r, by simp [run, hs, h]⟩
              obtain ⟨field, r, i', d', index', hidx, hf, hsb, hw, hr, hv, rfl⟩ := step_inl hs
              obtain ⟨v1, v2, v3, v4, v5, v6⟩ := selectVariant_bounds hv
              have hd' : goodRepeat d' = true := by
                by_cases e : i' = s.i
                · rw [v3 e]; exact hd
                · exact hgood d' (List.mem_of_getElem? (v4 e).1)
              have hbit' : (s.bit + winBits m.data.vis.length field) % 8 < 8 := by omega
              by_cases hi : i' = s.i
              · have hdd := v3 hi
                subst hi hdd
                have hf' := goIndex_ok hf
                have hpos : 8 * (s.sb + (winBits m.data.vis.length field + s.bit) / 8) +
                    (s.bit + winBits m.data.vis.length field) % 8 =
                    8 * s.sb + s.bit + winBits m.data.vis.length field := by omega
                by_cases hz : winBits m.data.vis.length field = 0
                · -- no progress: the distance decreases
                  refine ihc (dist' m.data.vis.length s.d
                    (nextIdx m.data.vis.length s.d s.idx
                      (s.sb + (winBits m.data.vis.length field + s.bit) / 8)).toNat) ?_ _ ha
                    (by simp only; omega) rfl hd hbit'
                  rw [← hc]
                  have hsb' : s.sb + (winBits m.data.vis.length field + s.bit) / 8 = s.sb := by omega
                  rw [hsb']
                  unfold dist'
                  by_cases hl : m.data.vis.length = 0
                  · rw [if_pos hl, if_pos hl]
                    unfold nextIdx
                    rw [if_neg (by omega)]
                    omega
                  · rw [if_neg hl, if_neg hl]
                    have hsz : field.size = 0 := by
                      unfold winBits winBytes at hz; omega
                    unfold nextIdx
                    by_cases hwr : s.idx = (s.d.fieldList.length : Int) - 1 ∧
                        0 < s.d.repeatingFields ∧ s.sb < m.data.vis.length
                    · rw [if_pos hwr]
                      have hRle : s.d.repeatingFields ≤ s.d.fieldList.length := by
                        unfold goodRepeat at hd
                        simp only [Bool.or_eq_true, beq_iff_eq, Bool.and_eq_true,
                          decide_eq_true_eq] at hd
                        omega
                      have e1 : (s.idx - (s.d.repeatingFields : Int) + 1).toNat =
                          s.d.fieldList.length - s.d.repeatingFields := by omega
                      rw [e1]
                      have h1 := dist_wrap hd hwr.2.1
                      have h2 : s.d.fieldList.length < dist s.d s.idx.toNat := by
                        have hk : s.idx.toNat < s.d.fieldList.length := by omega
                        have hfe : s.d.fieldList[s.idx.toNat] = field := by
                          have := hf'.2
                          rw [List.getElem?_eq_getElem hk] at this; injection this
                        unfold dist
                        rw [List.drop_eq_getElem_cons hk, List.findIdx_cons, hfe]
                        have hnil : s.d.fieldList.drop (s.idx.toNat + 1) = [] :=
                          List.drop_eq_nil_of_le (by omega)
                        have hdec : decide (0 < field.size) = false := by simp [hsz]
                        have ht : ([] : List Field).findIdx (fun f => decide (0 < f.size)) = 0 := rfl
                        rw [hnil, hdec]
                        simp only [cond_false, ht]
                        rw [if_neg (by omega)]
                        omega
                      omega
                    · rw [if_neg hwr]
                      have e1 : (s.idx + 1).toNat = s.idx.toNat + 1 := by omega
                      rw [e1]
                      exact dist_step hf'.2 hsz
                · -- progress: fewer bits left
                  exact ihb (8 * m.data.vis.length + 8 -
                    (8 * (s.sb + (winBits m.data.vis.length field + s.bit) / 8) +
                      (s.bit + winBits m.data.vis.length field) % 8)) (by omega) _ _ ha rfl rfl hd hbit'
              · -- another definition
                have hlt : i' < tbl.length := by
                  have := (v4 hi).1
                  rcases Nat.lt_or_ge i' tbl.length with h | h
                  · exact h
                  · rw [List.getElem?_eq_none h] at this; cases this
                exact iha (tbl.length + j + 2 - i') (by omega) _ _ _ rfl rfl rfl hd' hbit'
  exact main _ _ _ s rfl rfl rfl hd hbit

/-- C45, general form: for every table in which each repeating group lies within its field list
and has a field of positive size, ParsePacket finishes on every message. -/
theorem C45_general (tbl : List Pgn) (hgood : ∀ d ∈ tbl, goodRepeat d = true) (env : Env)
    (m : RawMessage) : ∃ r, ParsePacket tbl env m r := by
  by_cases hne : tbl = []
  · subst hne
    exact ⟨.error .index, 0, rfl⟩
  · obtain ⟨i, d, hf, hd, _⟩ := C33_first tbl m.pgn hne
    obtain ⟨jj, q, hl, _, _⟩ := C33_last tbl m.pgn hne
    obtain ⟨n, r, h⟩ := run_terminates (env := env) (m := m) (j := jj) (one := i == jj) hgood
      (initSt i d) (hgood d (List.mem_of_getElem? hd)) (by simp [initSt])
    exact ⟨r, (ParsePacket_iff hf hl).mpr ⟨n, h⟩⟩

theorem table_goodRepeat : ∀ d ∈ Table.pgnList, goodRepeat d = true := by
  have : Table.pgnList.all goodRepeat = true := by decide +kernel
  exact List.all_eq_true.mp this

/-- C45: with the shipped table, ParsePacket finishes on every message. -/
theorem C45_terminates (env : Env) (m : RawMessage) : ∃ r, ParsePacket Table.pgnList env m r :=
  C45_general _ table_goodRepeat env m

/-! The hypothesis of `C45_general` is needed: a repeating group of size 0 loops forever. -/

/-- A definition that repeats a field of size 0. -/
def loopDef : Pgn := ⟨"x", "x", 7, true, 8, 1, [⟨"a", 0, .binary, false, .nil, "", "", 0⟩]⟩

theorem C45_needs_positive_group (env : Env) :
    ¬ ∃ r, ParsePacket [loopDef] env ⟨0, 7, 0, 0, 1, ⟨[1], []⟩⟩ r := by
  have key : ∀ n (s : St), s.d = loopDef → s.idx = 0 → s.sb = 0 → s.bit = 0 →
      run [loopDef] env ⟨0, 7, 0, 0, 1, ⟨[1], []⟩⟩ 0 true n s = none := by
    intro n
    induction n with
    | zero => intros; rfl
    | succ n ih =>
      intro s h1 h2 h3 h4
      obtain ⟨i, d, idx, odx, sb, bit, index, data⟩ := s
      simp only at h1 h2 h3 h4
      subst h1 h2 h3 h4
      have h := step_cont (tbl := [loopDef]) (env := env) (m := ⟨0, 7, 0, 0, 1, ⟨[1], []⟩⟩) (j := 0)
        (one := true) (s := ⟨i, loopDef, 0, odx, 0, 0, index, data⟩)
        (field := ⟨"a", 0, .binary, false, .nil, "", "", 0⟩) (r := some (.bytes []))
        (i' := i) (index' := index) (d' := loopDef) (by simp [loopDef]) rfl (by simp [winBytes]) rfl rfl
      rw [run, h]
      exact ih _ rfl (by simp [nextIdx, loopDef, winBits, winBytes]) (by simp [winBits, winBytes])
        (by simp [winBits, winBytes])
  rintro ⟨r, n, h⟩
  have := key n (initSt 0 loopDef) rfl rfl rfl rfl
  unfold parsePacketN at h
  change run [loopDef] env ⟨0, 7, 0, 0, 1, ⟨[1], []⟩⟩ 0 true n (initSt 0 loopDef) = some r at h
  rw [this] at h
  cases h

/-! ## Shape of the result -/

theorem DataMap.set_new {d : DataMap} {k : Nat} (v : Val) (h : k ∉ d.map Prod.fst) :
    d.set k v = d ++ [(k, v)] := by
  unfold DataMap.set
  rw [if_neg]
  simp only [List.any_eq_true, decide_eq_true_eq, not_exists, not_and]
  intro x hx e
  exact h (List.mem_map.mpr ⟨x, hx, e⟩)

/-- C49: whatever the table, a result's header is the message and its data keys are 0, 1, ..., n-1
in order, each once. -/
theorem C49_shape {p : Parsed} (h : ParsePacket tbl env m (.ok p)) :
    p.header = m ∧ p.data.map Prod.fst = List.range p.data.length := by
  obtain ⟨n, hn⟩ := h
  unfold parsePacketN at hn
  split at hn
  · obtain ⟨s', hP, hok, _⟩ := run_inv
      (fun s => s.data.map Prod.fst = List.range s.odx) (by
        intro s s' hP hs
        obtain ⟨field, r, i', d', index', _, _, _, _, _, _, rfl⟩ := step_inl hs
        simp only
        rw [DataMap.set_new _ (by rw [hP]; simp), List.map_append, hP, List.range_succ]
        rfl) (by rfl) hn
    obtain ⟨he, _⟩ := step_inr (hok p rfl)
    subst he
    refine ⟨rfl, ?_⟩
    have hl : s'.data.length = s'.odx := by
      have := congrArg List.length hP; simpa using this
    simp only
    rw [hP, hl]
  · cases hn
  · cases hn

/-! ## Unknown PGNs -/

/-- C48: a message whose PGN is not in the shipped table yields index 0 and one entry holding its
first min(8, len) bytes. -/
theorem C48_unknown (env : Env) (m : RawMessage) (h : ∀ d ∈ Table.pgnList, d.pgn ≠ m.pgn) :
    ParsePacket Table.pgnList env m (.ok ⟨m, 0, [(0, .bytes (m.data.vis.take 8))]⟩) := by
  have hne : Table.pgnList ≠ [] := List.cons_ne_nil _ _
  obtain ⟨i, d, hf, hd, hi⟩ := C33_first Table.pgnList m.pgn hne
  obtain ⟨jj, q, hl, hq, hj⟩ := C33_last Table.pgnList m.pgn hne
  have hi0 : i = 0 := by
    rcases hi with ⟨h1, _⟩ | ⟨h1, _⟩
    · exact absurd h1 (h d (List.mem_of_getElem? hd))
    · exact h1
  have hj0 : jj = 0 := by
    rcases hj with ⟨h1, _⟩ | ⟨h1, _⟩
    · exact absurd h1 (h q (List.mem_of_getElem? hq))
    · exact h1
  subst hi0 hj0
  have hd0 : d = Table.p0 := by
    have : Table.pgnList[0]? = some Table.p0 := List.getElem?_cons_zero
    exact (Option.some.inj (this.symm.trans hd)).symm
  subst hd0
  rw [ParsePacket_iff hf hl]
  refine ⟨2, ?_⟩
  have hlen : min 8 m.data.vis.length ≤ m.data.vis.length := by omega
  obtain ⟨r, hr, hrv, _⟩ := sub_len (s := m.data) (lo := 0) (hi := min 8 m.data.vis.length)
    (by omega) hlen
  have hwin : winBytes m.data.vis.length ⟨"Bytes", 64, .binary, false, .nil, "", "", 0⟩ =
      min 8 m.data.vis.length := by simp [winBytes]
  have hbits : winBits m.data.vis.length ⟨"Bytes", 64, .binary, false, .nil, "", "", 0⟩ =
      8 * min 8 m.data.vis.length := by simp only [winBits, winBytes]; omega
  have h1 := step_cont (tbl := Table.pgnList) (env := env) (m := m) (j := 0) (one := true)
    (s := initSt 0 Table.p0) (field := ⟨"Bytes", 64, .binary, false, .nil, "", "", 0⟩)
    (r := some (.bytes r.vis)) (i' := 0) (d' := Table.p0) (index' := 0)
    (by simp [initSt, Table.p0]) rfl
    (by rw [hwin]; simp only [initSt]; omega)
    (by rw [hwin]; simp only [decodeField, initSt, Nat.add_zero, hr, bind, Except.bind]; rfl)
    rfl
  have hrb : r.vis = m.data.vis.take 8 := by
    rw [hrv, List.drop_zero]
    by_cases h8 : 8 ≤ m.data.vis.length
    · rw [Nat.min_eq_left h8]
    · rw [Nat.min_eq_right (by omega), List.take_of_length_le (Nat.le_refl _),
        List.take_of_length_le (by omega)]
  change run Table.pgnList env m 0 true 2 (initSt 0 Table.p0) = _
  unfold run
  rw [h1]
  simp only
  unfold run
  rw [step_eq, if_neg]
  · simp only
    rw [DataMap.set_new _ (by simp [initSt])]
    simp [initSt, hrb]
  · rw [nextIdx_noRepeat rfl]
    simp [initSt, Table.p0]

example : ∀ d ∈ Table.pgnList, d.pgn ≠ 61000 := by
  have : Table.pgnList.all (fun d => d.pgn != 61000) = true := by decide +kernel
  intro d hd
  have := List.all_eq_true.mp this d hd
  simpa using this

end Argo.Nmea2k
