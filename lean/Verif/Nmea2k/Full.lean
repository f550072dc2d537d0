import Verif.Nmea2k.Entries

set_option autoImplicit false

/-! # C38: which shipped numeric fields are read in full -/

namespace Argo.Nmea2k

open Argo Argo.Nmea2k.Spec

namespace Spec

/-- Resolutions of numeric fields (decoded from a bit pattern). -/
def numericRes : Res → Bool
  | .one | .integer | .lookup | .manufacturer | .scale _ => true
  | _ => false

/-- Summed size of the repeating group. -/
def groupSize (d : Pgn) : Nat := ((d.fieldList.drop (d.fieldList.length - d.repeatingFields)).map (·.size)).sum

/-- The 28 shipped numeric fields (definition index, field index) that start inside a byte and
extend into one more byte than their size spans. -/
def straddlers : List (Nat × Nat) :=
  [(62, 5), (62, 6), (62, 7), (62, 8), (62, 9), (62, 10), (62, 11), (62, 12), (62, 13), (62, 14),
   (62, 15), (97, 4), (97, 5), (97, 6), (97, 7), (113, 25), (148, 7), (148, 8), (148, 9), (149, 7),
   (149, 18), (150, 14), (150, 15), (156, 11), (269, 4), (269, 5), (269, 6), (269, 7)]

/-- The 3 shipped numeric fields of more than 64 bits. -/
def tooWide : List (Nat × Nat) := [(220, 5), (221, 5), (236, 5)]

end Spec

/-- The table check behind C38, one field. -/
def fieldCheck (d : Pgn) (i : Nat) (e : Field × Nat) : Bool :=
  !numericRes e.1.res ||
    (straddles (position d.fieldList e.2) e.1.size == straddlers.contains (i, e.2) &&
      decide (64 < e.1.size) == tooWide.contains (i, e.2))

theorem table_fieldCheck : Table.pgnList.zipIdx.all
    (fun di => di.1.fieldList.zipIdx.all (fieldCheck di.1 di.2)) = true := by decide +kernel

/-- C38, classification: a shipped numeric field straddles iff it is in the list of 28, and is wider
than 64 bits iff it is in the list of 3. -/
theorem C38_list {i k : Nat} {d : Pgn} {f : Field} (hd : Table.pgnList[i]? = some d)
    (hf : d.fieldList[k]? = some f) (hn : numericRes f.res = true) :
    (straddles (position d.fieldList k) f.size = true ↔ (i, k) ∈ straddlers) ∧
    (64 < f.size ↔ (i, k) ∈ tooWide) := by
  have h := List.all_eq_true.mp table_fieldCheck (d, i) (List.mem_zipIdx_iff_getElem?.mpr hd)
  have h := List.all_eq_true.mp h (f, k) (List.mem_zipIdx_iff_getElem?.mpr hf)
  unfold fieldCheck at h
  simp only [hn, Bool.not_true, Bool.false_or, Bool.and_eq_true, beq_iff_eq] at h
  constructor
  · rw [h.1, List.contains_iff_mem]
  · rw [← List.contains_iff_mem, ← h.2, decide_eq_true_eq]

theorem readable_full {pos size : Nat} (h : straddles pos size = false) : readable pos size = size := by
  unfold straddles at h
  unfold readable
  simp only [decide_eq_false_iff_not] at h
  omega

/-- C38 (partial): every shipped numeric field other than those 31 is decoded from all of its bits,
for every message that covers it. -/
theorem C38_partial {i k : Nat} {d : Pgn} {f : Field} (hd : Table.pgnList[i]? = some d)
    (hf : d.fieldList[k]? = some f) (hn : numericRes f.res = true) (h1 : (i, k) ∉ straddlers)
    (h2 : (i, k) ∉ tooWide) (m : RawMessage)
    (hc : position d.fieldList k / 8 + byteCount f.size ≤ m.data.vis.length) :
    extractNumber m f (position d.fieldList k / 8) (byteCount f.size + position d.fieldList k / 8)
        (position d.fieldList k % 8) f.size =
      .ok (some (numeric f (bitsAt m.data.vis (position d.fieldList k) f.size))) := by
  obtain ⟨c1, c2⟩ := C38_list hd hf hn
  have hs : straddles (position d.fieldList k) f.size = false := by
    cases h : straddles (position d.fieldList k) f.size with
    | false => rfl
    | true => exact absurd (c1.mp h) h1
  have hw : f.size ≤ 64 := Nat.le_of_not_lt (fun h => h2 (c2.mp h))
  rw [number_eq m f _ hc, if_pos (by unfold byteCount; omega), readable_full hs]

/-- A message whose only 1 is bit `q`. -/
def oneBit (q : Nat) : List Byte := List.replicate (q / 8) 0 ++ [UInt8.ofNat (2 ^ (q % 8))]

/-- The check behind C38_false for one field. -/
def straddleWitness (e : Nat × Nat) : Bool :=
  match Table.pgnList[e.1]? with
  | none => false
  | some d =>
    match d.fieldList[e.2]? with
    | none => false
    | some f =>
      let pos := position d.fieldList e.2
      let data := oneBit (pos + f.size - 1)
      let m : RawMessage := ⟨0, d.pgn, 0, 0, 0, ⟨data, []⟩⟩
      decide (pos / 8 + byteCount f.size ≤ data.length) &&
      decide (extractNumber m f (pos / 8) (byteCount f.size + pos / 8) (pos % 8) f.size =
        .ok (some (numeric f 0))) &&
      decide (bitsAt data pos f.size = 2 ^ (f.size - 1))

/-- C38 is false: for each of the 28 fields there is a message covering it in which its most
significant bit is set and which decodes as 0. -/
theorem C38_false : ∀ e ∈ straddlers, ∃ d f, Table.pgnList[e.1]? = some d ∧ d.fieldList[e.2]? = some f ∧
    ∃ m : RawMessage, position d.fieldList e.2 / 8 + byteCount f.size ≤ m.data.vis.length ∧
      bitsAt m.data.vis (position d.fieldList e.2) f.size = 2 ^ (f.size - 1) ∧
      extractNumber m f (position d.fieldList e.2 / 8)
        (byteCount f.size + position d.fieldList e.2 / 8) (position d.fieldList e.2 % 8) f.size =
        .ok (some (numeric f 0)) := by
  have hall : straddlers.all straddleWitness = true := by decide +kernel
  intro e he
  have h := List.all_eq_true.mp hall e he
  unfold straddleWitness at h
  cases hd : Table.pgnList[e.1]? with
  | none => rw [hd] at h; cases h
  | some d =>
    rw [hd] at h
    simp only at h
    cases hf : d.fieldList[e.2]? with
    | none => rw [hf] at h; cases h
    | some f =>
      rw [hf] at h
      simp only [Bool.and_eq_true, decide_eq_true_eq] at h
      exact ⟨d, f, rfl, hf, _, h.1.1, h.2, h.1.2⟩

/-- The 3 numeric fields of more than 64 bits are reported as not present in every message. -/
theorem C38_false_wide {i k : Nat} {d : Pgn} {f : Field} (hd : Table.pgnList[i]? = some d)
    (hf : d.fieldList[k]? = some f) (hn : numericRes f.res = true) (h : (i, k) ∈ tooWide)
    (m : RawMessage) (hc : position d.fieldList k / 8 + byteCount f.size ≤ m.data.vis.length) :
    extractNumber m f (position d.fieldList k / 8) (byteCount f.size + position d.fieldList k / 8)
        (position d.fieldList k % 8) f.size = .ok none := by
  have := (C38_list hd hf hn).2.mpr h
  rw [number_eq m f _ hc, if_neg (by unfold byteCount; omega)]

/-! ## Repetitions -/

theorem position_group (d : Pgn) :
    position d.fieldList d.fieldList.length =
      position d.fieldList (d.fieldList.length - d.repeatingFields) + groupSize d := by
  unfold position groupSize
  rw [List.take_length, ← List.sum_append, ← List.map_append, List.take_append_drop]

/-- If `M` divides the size of the repeating group, every repetition of a field has the same position
modulo `M` as its first occurrence. -/
theorem entryPos_mod {d : Pgn} {M : Nat} (hR : d.repeatingFields ≤ d.fieldList.length)
    (hM : M ∣ groupSize d) (hpos : 0 < d.repeatingFields) (k : Nat) :
    entryPos d k % M =
      position d.fieldList (entryField d.fieldList.length d.repeatingFields k) % M := by
  induction k with
  | zero =>
    have : entryField d.fieldList.length d.repeatingFields 0 = 0 := by
      unfold entryField; rw [if_pos (Or.inr (by omega))]
    rw [this]; rfl
  | succ k ih =>
    have hlt := entryField_lt (n := d.fieldList.length) (k := k) hpos hR
    have hs : position d.fieldList (entryField d.fieldList.length d.repeatingFields k + 1) =
        position d.fieldList (entryField d.fieldList.length d.repeatingFields k) +
          ((entryOf d k).map (·.size)).getD 0 := by rw [position_succ]; rfl
    have step : entryPos d (k + 1) % M =
        position d.fieldList (entryField d.fieldList.length d.repeatingFields k + 1) % M := by
      rw [entryPos, hs, Nat.add_mod, ih, ← Nat.add_mod]
    rw [step]
    by_cases h : entryField d.fieldList.length d.repeatingFields k + 1 < d.fieldList.length
    · rw [entryField_next hR h]
    · have hl : entryField d.fieldList.length d.repeatingFields k = d.fieldList.length - 1 := by omega
      rw [entryField_last hpos hR hl]
      have e : entryField d.fieldList.length d.repeatingFields k + 1 = d.fieldList.length := by omega
      rw [e, position_group d]
      obtain ⟨c, hc⟩ := hM
      rw [hc, Nat.add_mul_mod_self_left]

/-- Shipped repeating groups are whole bytes, except in PGNs 127501, 127502 (one 2-bit field after
whole bytes) and 129805. -/
theorem table_groups : ∀ d ∈ Table.pgnList, d.pgn ≠ 129805 → 0 < d.repeatingFields →
    groupSize d % 8 = 0 ∨
    (groupSize d = 2 ∧ d.repeatingFields = 1 ∧ ∀ k f, d.fieldList[k]? = some f →
      position d.fieldList k % 8 = 0 ∧ (k = d.fieldList.length - 1 → f.size = 2)) := by
  have h : Table.pgnList.all (fun d => d.pgn == 129805 || d.repeatingFields == 0 ||
      groupSize d % 8 == 0 || (groupSize d == 2 && d.repeatingFields == 1 && d.fieldList.zipIdx.all (fun e =>
        position d.fieldList e.2 % 8 == 0 && (e.2 != d.fieldList.length - 1 || e.1.size == 2)))) = true := by
    decide +kernel
  intro d hd h1 h2
  have h := List.all_eq_true.mp h d hd
  simp only [Bool.or_eq_true, Bool.and_eq_true, beq_iff_eq] at h
  rcases h with ((h | h) | h) | ⟨⟨h, hr⟩, hk⟩
  · exact absurd h h1
  · omega
  · exact Or.inl h
  · refine Or.inr ⟨h, hr, fun k f hf => ?_⟩
    have := List.all_eq_true.mp hk (f, k) (List.mem_zipIdx_iff_getElem?.mpr hf)
    simp only [Bool.and_eq_true, Bool.or_eq_true, beq_iff_eq, bne_iff_ne] at this
    exact ⟨this.1, fun hk => by rcases this.2 with h | h; exact absurd hk h; exact h⟩

/-- The first pass through the fields. -/
theorem entryPos_first {d : Pgn} {k : Nat} (h : k ≤ d.fieldList.length) :
    entryPos d k = position d.fieldList k := by
  induction k with
  | zero => rfl
  | succ k ih =>
    rw [entryPos, position_succ, ih (by omega)]
    unfold entryOf entryField
    rw [if_pos (Or.inr (by omega))]

theorem straddles_mod {p q size : Nat} (h : p % 8 = q % 8) : straddles p size = straddles q size := by
  unfold straddles; rw [h]

/-- C38 (partial), repetitions: in every shipped definition except PGN 129805, every repetition of a
numeric field lies in the bytes it is read from exactly when its first occurrence does; with
`C50_entries`, entry `k` is decoded from all of its bits. -/
theorem C38_repetitions_partial {i k : Nat} {d : Pgn} {f : Field} (hd : Table.pgnList[i]? = some d)
    (hf : entryOf d k = some f) (hn : numericRes f.res = true) (h0 : d.pgn ≠ 129805)
    (h1 : (i, entryField d.fieldList.length d.repeatingFields k) ∉ straddlers)
    (h2 : (i, entryField d.fieldList.length d.repeatingFields k) ∉ tooWide)
    (env : Env) (data : List Byte) :
    readable (entryPos d k) f.size = f.size ∧
    (f.res = .one ∨ f.res = .integer ∨ (∃ s, f.res = .scale s) →
        fieldValue env data f (entryPos d k) =
          some (numeric f (bitsAt data (entryPos d k) f.size))) := by
  have hmem := List.mem_of_getElem? hd
  have hR : d.repeatingFields ≤ d.fieldList.length := by
    have := table_goodRepeat d hmem
    unfold goodRepeat at this
    by_cases hz : d.repeatingFields = 0
    · omega
    · simp [hz] at this; omega
  have hf' : d.fieldList[entryField d.fieldList.length d.repeatingFields k]? = some f := hf
  obtain ⟨c1, c2⟩ := C38_list hd hf' hn
  have hs : straddles (position d.fieldList (entryField d.fieldList.length d.repeatingFields k)) f.size = false := by
    cases h : straddles _ f.size with
    | false => rfl
    | true => exact absurd (c1.mp h) h1
  have hw : f.size ≤ 64 := Nat.le_of_not_lt (fun h => h2 (c2.mp h))
  have hst : straddles (entryPos d k) f.size = false := by
    by_cases hz : d.repeatingFields = 0
    · rw [entryPos_fixed hz]
      unfold entryField at hs
      rw [if_pos (Or.inl hz)] at hs
      exact hs
    · rcases table_groups d hmem h0 (by omega) with hg | ⟨hg, hr1, hk⟩
      · have := entryPos_mod (M := 8) hR (Nat.dvd_of_mod_eq_zero hg) (by omega) k
        rw [straddles_mod this]; exact hs
      · by_cases hkn : k < d.fieldList.length
        · rw [entryPos_first (by omega)]
          unfold entryField at hs
          rw [if_pos (Or.inr hkn)] at hs
          exact hs
        · have := entryPos_mod (M := 2) hR (by rw [hg]) (by omega) k
          have hef : entryField d.fieldList.length d.repeatingFields k = d.fieldList.length - 1 := by
            unfold entryField; rw [if_neg (by omega), hr1, Nat.mod_one]; rfl
          obtain ⟨e1, e2⟩ := hk _ f hf'
          have e2 := e2 hef
          have e3 : entryPos d k % 2 = 0 := by omega
          unfold straddles byteCount
          simp only [decide_eq_false_iff_not]
          omega
  refine ⟨readable_full hst, ?_⟩
  intro hres
  have hb : byteCount f.size ≤ 8 := by unfold byteCount; omega
  have hr := readable_full hst
  rcases hres with h | h | ⟨s, h⟩ <;>
    simp only [fieldValue, h, hr, if_pos hb]

/-- Non-trivial instances: the second repetition of a field of PGN 127501 and a shipped field that is
in neither list. -/
example : ∃ d f, Table.pgnList[76]? = some d ∧ d.fieldList[4]? = some f ∧ numericRes f.res = true ∧
    (76, 4) ∉ straddlers ∧ (76, 4) ∉ tooWide := by
  refine ⟨Table.p76, _, by decide +kernel, rfl, by decide +kernel, by decide, by decide⟩

example : ∃ d f, Table.pgnList[87]? = some d ∧ entryOf d 5 = some f ∧ numericRes f.res = true ∧
    d.pgn ≠ 129805 ∧ entryPos d 5 = 16 ∧ (87, entryField 2 1 5) ∉ straddlers := by
  refine ⟨Table.p87, ⟨"Indicator", 2, .lookup, false, .lookup "lookupOffOn", "", "", 0⟩,
    by decide +kernel, by decide +kernel, by decide, by decide +kernel, by decide +kernel, by decide⟩

end Argo.Nmea2k
