import Verif.Nmea2k.Fields

set_option autoImplicit false

/-! # C50: each entry is its field, decoded at its place; C38: fields read in full -/

namespace Argo.Nmea2k

open Argo Argo.Nmea2k.Spec

variable {tbl : List Pgn} {env : Env} {m : RawMessage}

/-- C50, general form (repeating groups and short messages included): for a PGN with one definition,
ParsePacket does not panic; entry `k` is the `k`-th field in reading order (the repeating group over
and over) decoded at the sum of the sizes of the entries before it; it stops after the last field,
or when a repetition starts at the end of the message, or when the next field does not fit. -/
theorem C50_entries {i : Nat} {d : Pgn} (ho : onlyDefinition tbl m.pgn i d) (hD : Decodable m d)
    {r : GoM Parsed} (h : ParsePacket tbl env m r) :
    ∃ p, r = .ok p ∧ p.header = m ∧ p.index = i ∧
      (∀ k, k < p.data.length → ∃ f, entryOf d k = some f ∧
        entryPos d k / 8 + byteCount f.size ≤ m.data.vis.length ∧
        p.data.get k = (fieldValue env m.data.vis f (entryPos d k)).getD .nil) ∧
      ((d.repeatingFields = 0 ∧ p.data.length = d.fieldList.length) ∨
       (0 < d.repeatingFields ∧ d.fieldList.length ≤ p.data.length ∧
         m.data.vis.length ≤ entryPos d p.data.length / 8) ∨
       (∃ f, entryOf d p.data.length = some f ∧
         m.data.vis.length < entryPos d p.data.length / 8 + byteCount f.size)) := by
  obtain ⟨hf, hl⟩ := first_only ho
  rw [ParsePacket_iff hf hl] at h
  obtain ⟨n, hn⟩ := h
  rw [show (i == i) = true by simp] at hn
  obtain ⟨s', hP, hok, herr⟩ := run_inv (FullInv env m i d) (fun s s' hs hst => fullInv_step hD hs hst)
    (fullInv_init hD) hn
  cases r with
  | error e =>
    exfalso
    obtain ⟨hidx, he | ⟨field, hfi, hsb, hw, he | ⟨r, hr, he⟩⟩⟩ := step_error (herr e rfl)
    · have h0 : 0 ≤ s'.idx := by
        have hg := hD.group
        rcases hP.track with ⟨t, _⟩ | ⟨_, _, t | ⟨_, t, _⟩⟩ <;> omega
      obtain ⟨a, ha, _⟩ := goIndex_of_lt h0 hidx
      rw [he] at ha; cases ha
    · have := (fullInv_decode hD hP hidx hfi hw).2.2.2.2
      rw [he] at this; cases this
    · unfold selectVariant at he
      split at he
      · rw [if_pos rfl] at he; cases he
      · cases he
  | ok p =>
    refine ⟨p, rfl, ?_⟩
    obtain ⟨he, hstop⟩ := step_inr (hok p rfl)
    subst he
    have hlen : s'.data.length = s'.odx := by
      have := congrArg List.length hP.keys; simpa using this
    refine ⟨rfl, hP.index_, ?_, ?_⟩
    · intro k hk
      exact hP.vals k (by simpa [hlen] using hk)
    · simp only [hlen]
      have hd := hP.def_
      have hp := hP.pos_
      have hb := hP.bit_
      have hg := hD.group
      rcases hstop with hstop | ⟨field, hidx, hfi, hw⟩
      · rw [hd] at hstop
        have hx : s'.idx = d.fieldList.length := by
          rcases hP.track with ⟨t1, t2⟩ | ⟨_, _, t | ⟨t, _, _⟩⟩ <;> omega
        rcases hP.end_ hx with h1 | ⟨h1, h2, h3⟩
        · exact Or.inl h1
        · exact Or.inr (Or.inl ⟨h1, h2, by omega⟩)
      · right; right
        rw [hd] at hidx hfi
        have hfo := goIndex_ok hfi
        have h2 := hP.track.field hidx
        have h3 : s'.idx.toNat = entryField d.fieldList.length d.repeatingFields s'.odx := by omega
        refine ⟨field, by unfold entryOf; rw [← h3]; exact hfo.2, ?_⟩
        have hmem := List.mem_of_getElem? hfo.2
        have hbc := hD.long field hmem
        obtain ⟨w1, _⟩ := winBytes_full hbc
        rw [w1] at hw
        have : s'.sb = entryPos d s'.odx / 8 := by omega
        rw [← this]
        rcases hw with hw | hw <;> omega

/-! ## Definitions without repetition -/

theorem entryOf_fixed {d : Pgn} (h : d.repeatingFields = 0) (k : Nat) : entryOf d k = d.fieldList[k]? := by
  unfold entryOf entryField; rw [if_pos (Or.inl h)]

theorem position_succ (fs : List Field) (k : Nat) :
    position fs (k + 1) = position fs k + (fs[k]?.map (·.size)).getD 0 := by
  unfold position
  rw [List.take_add_one, List.map_append, List.sum_append]
  cases fs[k]? <;> simp

theorem entryPos_fixed {d : Pgn} (h : d.repeatingFields = 0) (k : Nat) :
    entryPos d k = position d.fieldList k := by
  induction k with
  | zero => rfl
  | succ k ih => rw [entryPos, position_succ, ih, entryOf_fixed h]

theorem position_mono (fs : List Field) {k l : Nat} (h : k ≤ l) : position fs k ≤ position fs l := by
  induction l with
  | zero => rw [Nat.le_zero.mp h]
  | succ l ih =>
    by_cases e : k = l + 1
    · rw [e]
    · have := ih (by omega)
      rw [position_succ]; omega

/-- A message of at least the summed size covers every field. -/
theorem covers_field {fs : List Field} {len k : Nat} {f : Field}
    (hlen : position fs fs.length ≤ 8 * len) (hf : fs[k]? = some f) :
    position fs k / 8 + byteCount f.size ≤ len := by
  have hk : k < fs.length := by
    rcases Nat.lt_or_ge k fs.length with h | h
    · exact h
    · rw [List.getElem?_eq_none h] at hf; cases hf
  have h1 := position_mono fs (show k + 1 ≤ fs.length from hk)
  rw [position_succ, hf] at h1
  simp only [Option.map_some, Option.getD_some] at h1
  unfold byteCount; omega

/-- C50: for a PGN with one non-repeating definition and a message covering it, ParsePacket returns
the message as header, the definition's index, and for each field `k` (and no other key) its value
at the sum of the sizes of the earlier fields. -/
theorem C50_fixed (hgood : ∀ d ∈ tbl, goodRepeat d = true) {i : Nat} {d : Pgn}
    (ho : onlyDefinition tbl m.pgn i d) (hrep : d.repeatingFields = 0)
    (hplain : ∀ f ∈ d.fieldList, plainField f = true)
    (hlz : ∀ k f, d.fieldList[k]? = some f → f.res = .stringLZ →
      lzSafe m.data.vis (position d.fieldList k / 8))
    (hlen : position d.fieldList d.fieldList.length ≤ 8 * m.data.vis.length) :
    ∃ p, ParsePacket tbl env m (.ok p) ∧ p.header = m ∧ p.index = i ∧
      p.data.map Prod.fst = List.range d.fieldList.length ∧
      ∀ k f, d.fieldList[k]? = some f →
        p.data.get k = (fieldValue env m.data.vis f (position d.fieldList k)).getD .nil := by
  obtain ⟨r, hr⟩ := C45_general tbl hgood env m
  have hD : Decodable m d := by
    refine ⟨by omega, hplain, ?_, ?_⟩
    · intro f hf
      obtain ⟨k, hk⟩ := List.getElem?_of_mem hf
      have := covers_field hlen hk
      omega
    · intro k f hf he
      rw [entryOf_fixed hrep] at hf
      rw [entryPos_fixed hrep]
      exact hlz k f hf he
  obtain ⟨p, rfl, h1, h2, h3, h4⟩ := C50_entries ho hD hr
  have hN : p.data.length = d.fieldList.length := by
    rcases h4 with ⟨_, h⟩ | ⟨h, _⟩ | ⟨f, hf, h⟩
    · exact h
    · omega
    · rw [entryOf_fixed hrep] at hf
      rw [entryPos_fixed hrep] at h
      have := covers_field hlen hf
      omega
  refine ⟨p, hr, h1, h2, by rw [(C49_shape hr).2, hN], ?_⟩
  intro k f hf
  have hk : k < p.data.length := by
    rw [hN]
    rcases Nat.lt_or_ge k d.fieldList.length with h | h
    · exact h
    · rw [List.getElem?_eq_none h] at hf; cases hf
  obtain ⟨f', hf', _, hv⟩ := h3 k hk
  rw [entryOf_fixed hrep, hf] at hf'
  injection hf' with hf'
  subst hf'
  rw [hv, entryPos_fixed hrep]

/-! ### The shipped table -/

/-- Boolean form of `onlyDefinition`. -/
def onlyB (tbl : List Pgn) (i : Nat) (d : Pgn) : Bool :=
  tbl.zipIdx.all (fun e => !(e.1.pgn == d.pgn) || e.2 == i)

theorem onlyB_spec {i : Nat} {d : Pgn} (h : tbl[i]? = some d) (hb : onlyB tbl i d = true) :
    onlyDefinition tbl d.pgn i d := by
  refine ⟨h, rfl, fun k q hk hq => ?_⟩
  unfold onlyB at hb
  rw [List.all_eq_true] at hb
  have := hb (q, k) (by rw [List.mem_zipIdx_iff_getElem?]; exact hk)
  simp [hq] at this
  exact this

/-- The only shipped field that is not plain (sub-lookup) is in PGN 60928. -/
theorem table_plain : ∀ d ∈ Table.pgnList, d.pgn ≠ 60928 → ∀ f ∈ d.fieldList, plainField f = true := by
  have : Table.pgnList.all (fun d => d.pgn == 60928 || d.fieldList.all plainField) = true := by
    decide +kernel
  intro d hd hp f hf
  have h := List.all_eq_true.mp this d hd
  rw [Bool.or_eq_true] at h
  rcases h with h | h
  · simp at h; exact absurd h hp
  · exact List.all_eq_true.mp h f hf

/-- C50 for the shipped table: every PGN with one non-repeating definition, other than 60928, and
every message at least as long as the definition. -/
theorem C50_shipped (env : Env) (m : RawMessage) {i : Nat} {d : Pgn}
    (ho : onlyDefinition Table.pgnList m.pgn i d) (h60928 : m.pgn ≠ 60928)
    (hrep : d.repeatingFields = 0)
    (hlz : ∀ k f, d.fieldList[k]? = some f → f.res = .stringLZ →
      lzSafe m.data.vis (position d.fieldList k / 8))
    (hlen : position d.fieldList d.fieldList.length ≤ 8 * m.data.vis.length) :
    ∃ p, ParsePacket Table.pgnList env m (.ok p) ∧ p.header = m ∧ p.index = i ∧
      p.data.map Prod.fst = List.range d.fieldList.length ∧
      ∀ k f, d.fieldList[k]? = some f →
        p.data.get k = (fieldValue env m.data.vis f (position d.fieldList k)).getD .nil :=
  C50_fixed table_goodRepeat ho hrep
    (table_plain d (List.mem_of_getElem? ho.1) (by rw [ho.2.1]; exact h60928)) hlz hlen

/-- PGN 127245 (Rudder) is one of them. -/
theorem rudder_only : onlyDefinition Table.pgnList 127245 76 Table.p76 :=
  onlyB_spec (d := Table.p76) (by decide +kernel) (by decide +kernel)

example (env : Env) (m : RawMessage) (hm : m.pgn = 127245) (hl : m.data.vis.length = 8) :
    ∃ p, ParsePacket Table.pgnList env m (.ok p) ∧ p.index = 76 ∧ p.data.length = 5 ∧
      p.data.get 4 = .f64 (twos 16 (bitsAt m.data.vis 32 16)) (.scale "RES_DEGREES") := by
  obtain ⟨p, h1, _, h3, h4, h5⟩ := C50_shipped env m (hm ▸ rudder_only) (by omega) rfl
    (by
      intro k f hf hr
      have : Table.p76.fieldList.all (fun f => !(f.res == .stringLZ)) = true := by decide +kernel
      have := List.all_eq_true.mp this f (List.mem_of_getElem? hf)
      simp [hr] at this)
    (by rw [hl]; decide +kernel)
  refine ⟨p, h1, h3, by simpa [Table.p76] using congrArg List.length h4, ?_⟩
  have e : position Table.p76.fieldList 4 = 32 := by decide +kernel
  rw [h5 4 ⟨"Position", 16, .scale "RES_DEGREES", true, .text "deg", "", "", 0⟩ (by decide +kernel), e]
  simp [fieldValue, numeric, rawRes, fieldInt, byteCount, readable]

end Argo.Nmea2k
