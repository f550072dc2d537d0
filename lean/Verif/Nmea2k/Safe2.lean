import Verif.Nmea2k.Safe

set_option autoImplicit false

/-! # C46 for the shipped table -/

namespace Argo.Nmea2k

open Argo Argo.Nmea2k.Spec

variable {tbl : List Pgn} {env : Env} {m : RawMessage} {j : Nat} {one : Bool}

/-- Another definition has the same PGN. -/
def multiB (tbl : List Pgn) (e : Pgn × Nat) : Bool :=
  tbl.zipIdx.any (fun x => x.1.pgn == e.1.pgn && x.2 != e.2)

/-- The check on entry `t` of the table when its PGN has several definitions. -/
def multiOK (tbl : List Pgn) (e : Pgn × Nat) : Bool :=
  !multiB tbl e || e.1.pgn == 130842 ||
    match tbl[e.2 + 1]? with
    | none => false
    | some d' => stepOK e.1 d' && ((d'.pgn == e.1.pgn && samePos e.1 d') || (d'.pgn != e.1.pgn && d'.fieldList.all plainField && noLZ d'))

theorem table_multiOK : Table.pgnList.zipIdx.all (multiOK Table.pgnList) = true := by decide +kernel

theorem table_units : ∀ d ∈ Table.pgnList, ∀ f ∈ d.fieldList, f.units ≠ .empty := by
  have : Table.pgnList.all (fun d => d.fieldList.all (fun f => !(f.units == .empty))) = true := by
    decide +kernel
  intro d hd f hf
  have := List.all_eq_true.mp (List.all_eq_true.mp this d hd) f hf
  simpa using this

theorem table_lz : ∀ d ∈ Table.pgnList, d.repeatingFields = 0 ∨ noLZ d = true := by
  have : Table.pgnList.all (fun d => d.repeatingFields == 0 || noLZ d) = true := by decide +kernel
  intro d hd
  have := List.all_eq_true.mp this d hd
  simpa using this

theorem table_head : Table.pgnList[0]? = some Table.p0 := List.getElem?_cons_zero

/-- The definitions of a PGN other than 60928 and 130842 are orderly, and those reached are of that PGN or have no
length-prefixed string. -/
theorem table_orderly (m : RawMessage) (h1 : m.pgn ≠ 60928) (h2 : m.pgn ≠ 130842) :
    ∃ i jj d q, first Table.pgnList m.pgn = .ok (i, d) ∧ last Table.pgnList m.pgn = .ok (jj, q) ∧ i ≤ jj ∧
      Table.pgnList[i]? = some d ∧ Orderly Table.pgnList i jj (i == jj) ∧
      ∀ t e, i ≤ t → t ≤ (if (i == jj) = true then i else jj + 1) → Table.pgnList[t]? = some e →
        e.pgn = m.pgn ∨ noLZ e = true := by
  have hne : Table.pgnList ≠ [] := List.cons_ne_nil _ _
  obtain ⟨i, d, hf, hd, hi⟩ := C33_first Table.pgnList m.pgn hne
  obtain ⟨jj, q, hl, hq, hj⟩ := C33_last Table.pgnList m.pgn hne
  have hij := C33_first_le_last _ _ hf hl
  -- entries between First and Last
  have hmulti : i ≠ jj → ∀ t e, i ≤ t → t ≤ jj → Table.pgnList[t]? = some e →
      e.pgn = m.pgn ∧ multiOK Table.pgnList (e, t) = true ∧ multiB Table.pgnList (e, t) = true := by
    intro hne t e ht1 ht2 he
    have hdp : d.pgn = m.pgn := by
      rcases hi with ⟨h, _⟩ | ⟨h, hall⟩
      · exact h
      · rcases hj with ⟨h', _⟩ | ⟨h', _⟩
        · exact absurd h' (hall q (List.mem_of_getElem? hq))
        · omega
    have hqp : q.pgn = m.pgn := by
      rcases hj with ⟨h, _⟩ | ⟨h, hall⟩
      · exact h
      · exact absurd hdp (hall d (List.mem_of_getElem? hd))
    have hep : e.pgn = m.pgn := by
      rw [C33_contiguous i t jj d e q ht1 ht2 hd he hq (by rw [hdp, hqp]), hdp]
    refine ⟨hep, List.all_eq_true.mp table_multiOK (e, t) (List.mem_zipIdx_iff_getElem?.mpr he), ?_⟩
    unfold multiB
    rw [List.any_eq_true]
    by_cases hti : t = i
    · refine ⟨(q, jj), List.mem_zipIdx_iff_getElem?.mpr hq, ?_⟩
      simp [hqp, hep]; omega
    · refine ⟨(d, i), List.mem_zipIdx_iff_getElem?.mpr hd, ?_⟩
      simp [hdp, hep]; omega
  have hnext : i ≠ jj → ∀ t e, i ≤ t → t ≤ jj → Table.pgnList[t]? = some e →
      ∃ e', Table.pgnList[t + 1]? = some e' ∧ stepOK e e' = true ∧
        ((e'.pgn = m.pgn ∧ samePos e e' = true) ∨
          (t = jj ∧ (∀ f ∈ e'.fieldList, plainField f = true) ∧ noLZ e' = true)) := by
    intro hne t e ht1 ht2 he
    obtain ⟨hep, hok, hb⟩ := hmulti hne t e ht1 ht2 he
    unfold multiOK at hok
    simp only [hb, Bool.not_true, Bool.false_or, Bool.or_eq_true, beq_iff_eq] at hok
    rcases hok with hok | hok
    · omega
    · cases hn : Table.pgnList[t + 1]? with
      | none => rw [hn] at hok; cases hok
      | some e' =>
        rw [hn] at hok
        simp only [Bool.and_eq_true, Bool.or_eq_true, beq_iff_eq, bne_iff_ne] at hok
        refine ⟨e', rfl, hok.1, ?_⟩
        rcases hok.2 with ⟨h, h'⟩ | ⟨⟨h0, h⟩, h'⟩
        · left; exact ⟨by omega, h'⟩
        · refine Or.inr ⟨?_, List.all_eq_true.mp h, h'⟩
          rcases Nat.lt_or_ge t jj with hlt | hge
          · exact absurd ((hmulti hne (t + 1) e' (by omega) (by omega) hn).1.trans hep.symm) h0
          · omega
  -- a reachable definition is of this PGN, or harmless
  have hreach : ∀ t e, i ≤ t → t ≤ (if (i == jj) = true then i else jj + 1) →
      Table.pgnList[t]? = some e →
      e.pgn = m.pgn ∨ ((∀ f ∈ e.fieldList, plainField f = true) ∧ noLZ e = true) := by
    intro t e ht1 ht2 he
    by_cases hone : i = jj
    · have : t = i := by simp [hone] at ht2; omega
      subst this
      rw [hd] at he; injection he with he; subst he
      rcases hi with ⟨h, _⟩ | ⟨h, _⟩
      · exact Or.inl h
      · subst h
        rw [table_head] at hd; injection hd with hd; subst hd
        exact Or.inr ⟨List.all_eq_true.mp (by decide +kernel), by decide +kernel⟩
    · have ht2 : t ≤ jj + 1 := by simpa [hone] using ht2
      by_cases hti : t = i
      · subst hti
        exact Or.inl ((hmulti hone t e (by omega) hij he).1)
      · have hlt : t - 1 < Table.pgnList.length := by
          have : t < Table.pgnList.length := by
            rcases Nat.lt_or_ge t Table.pgnList.length with h | h
            · exact h
            · rw [List.getElem?_eq_none h] at he; cases he
          omega
        obtain ⟨e', he', _, h⟩ := hnext hone (t - 1) _ (by omega) (by omega)
          (List.getElem?_eq_getElem hlt)
        rw [show t - 1 + 1 = t by omega, he] at he'
        injection he' with he'; subst he'
        rcases h with h | h
        · exact Or.inl h.1
        · exact Or.inr h.2
  refine ⟨i, jj, d, q, hf, hl, hij, hd, ?_, fun t e ht1 ht2 he => (hreach t e ht1 ht2 he).imp_right And.right⟩
  refine ⟨fun d hd => ⟨table_noMustInGroup d hd, table_units d hd⟩, ?_, ?_, ?_⟩
  · intro t e ht1 ht2 he f hfm
    rcases hreach t e ht1 ht2 he with h | ⟨h, _⟩
    · exact table_plain e (List.mem_of_getElem? he) (by omega) f hfm
    · exact h f hfm
  · intro t e k f ht1 ht2 he hfk hres
    rcases table_lz e (List.mem_of_getElem? he) with h | h
    · exact h
    · exact absurd hres (noLZ_spec h hfk)
  · intro hone t e ht1 ht2 he
    obtain ⟨e', h1, h2, h3⟩ := hnext (by simpa using hone) t e ht1 ht2 he
    refine ⟨e', h1, h2, ?_⟩
    rcases h3 with h3 | h3
    · exact Or.inl h3.2
    · exact Or.inr ⟨h3.1, h3.2.2⟩

/-- C46 (partial): ParsePacket returns normally on every message, whatever its PGN and data, except
for PGNs 60928 and 130842 and for messages with a length-prefixed string whose position plus
length exceeds 255. -/
theorem C46_partial (env : Env) (m : RawMessage) (h1 : m.pgn ≠ 60928) (h2 : m.pgn ≠ 130842)
    (hlz : ∀ d ∈ Table.pgnList, d.pgn = m.pgn → ∀ k f, d.fieldList[k]? = some f →
      f.res = .stringLZ → lzSafe m.data.vis (position d.fieldList k / 8)) :
    ∃ p, ParsePacket Table.pgnList env m (.ok p) := by
  obtain ⟨i, jj, d, q, hf, hl, hij, hd, hO, hreach⟩ := table_orderly m h1 h2
  have hS : SafeDefs Table.pgnList m i jj (i == jj) := by
    refine ⟨hO, fun t e k f ht1 ht2 he hfk hres => ?_⟩
    rcases hreach t e ht1 ht2 he with h | h
    · exact hlz e (List.mem_of_getElem? he) h k f hfk hres
    · exact absurd hres (noLZ_spec h hfk)
  obtain ⟨r, hr⟩ := C45_terminates env m
  cases r with
  | ok p => exact ⟨p, hr⟩
  | error e => exact absurd hr (safe_general hf hl hij hd hS e)

/-- The exception for length-prefixed strings concerns six PGNs. -/
theorem C46_lz_pgns : ∀ d ∈ Table.pgnList, noLZ d = false →
    d.pgn ∈ [130816, 130820, 130847, 262211, 262212, 262213] := by
  have : Table.pgnList.all (fun d => noLZ d ||
      [130816, 130820, 130847, 262211, 262212, 262213].contains d.pgn) = true := by decide +kernel
  intro d hd h
  have := List.all_eq_true.mp this d hd
  rw [h, Bool.false_or, List.contains_iff_mem] at this
  exact this

/-! ## PGN 130842 -/

/-- Running with an invariant that excludes returning means panicking. -/
theorem panics_of_inv {i : Nat} {d q : Pgn} (hf : first tbl m.pgn = .ok (i, d))
    (hl : last tbl m.pgn = .ok (j, q)) (hgood : ∀ d ∈ tbl, goodRepeat d = true) (P : St → Prop)
    (h0 : P (initSt i d))
    (hstep : ∀ s s', P s → step tbl env m j (i == j) s = .ok (.inl s') → P s')
    (hret : ∀ s p, P s → step tbl env m j (i == j) s ≠ .ok (.inr p)) :
    ∃ e, ParsePacket tbl env m (.error e) := by
  obtain ⟨r, hr⟩ := C45_general tbl hgood env m
  cases r with
  | error e => exact ⟨e, hr⟩
  | ok p =>
    exfalso
    rw [ParsePacket_iff hf hl] at hr
    obtain ⟨n, hn⟩ := hr
    obtain ⟨s', hP, hok, _⟩ := run_inv P hstep h0 hn
    exact hret s' p hP (hok p rfl)

/-- Running with an invariant that excludes panics means returning. -/
theorem returns_of_inv {i : Nat} {d q : Pgn} (hf : first tbl m.pgn = .ok (i, d))
    (hl : last tbl m.pgn = .ok (j, q)) (hgood : ∀ d ∈ tbl, goodRepeat d = true) (P : St → Prop)
    (h0 : P (initSt i d))
    (hstep : ∀ s s', P s → step tbl env m j (i == j) s = .ok (.inl s') → P s')
    (herr : ∀ s e, P s → step tbl env m j (i == j) s ≠ .error e) :
    ∃ p, ParsePacket tbl env m (.ok p) := by
  obtain ⟨r, hr⟩ := C45_general tbl hgood env m
  cases r with
  | ok p => exact ⟨p, hr⟩
  | error e =>
    exfalso
    rw [ParsePacket_iff hf hl] at hr
    obtain ⟨n, hn⟩ := hr
    obtain ⟨s', hP, _, hbad⟩ := run_inv P hstep h0 hn
    exact herr s' e hP (hbad e rfl)

theorem first_130842 : first Table.pgnList 130842 = .ok (254, Table.p254) := by decide +kernel
theorem last_130842 : last Table.pgnList 130842 = .ok (255, Table.p255) := by decide +kernel

/-- The first four fields of the two definitions of PGN 130842. -/
def head130842 (v : Nat) : List Field :=
  [⟨"Manufacturer Code", 11, .manufacturer, false, .lookup "lookupCompanyCode", "Simrad", "", 0⟩,
   ⟨"Reserved", 2, .one, false, .int 0, "", "", 0⟩,
   ⟨"Industry Code", 3, .lookup, false, .lookup "lookupIndustryCode", "", "", 0⟩,
   ⟨"Message ID", 6, .one, false, .must v, if v = 0 then "Msg 24 Part A" else "Msg 24 Part B", "", 0⟩]

theorem p254_head : Table.p254.fieldList.take 4 = head130842 0 := by decide +kernel
theorem p255_head : Table.p255.fieldList.take 4 = head130842 1 := by decide +kernel

/-- Reading before the '=' field of PGN 130842, at exact positions. -/
structure Before (m : RawMessage) (s : St) : Prop where
  def_ : s.d = Table.p254
  i_ : s.i = 254
  lo : 0 ≤ s.idx
  hi : s.idx ≤ 3
  bit_ : s.bit < 8
  pos : 8 * s.sb + s.bit = position (head130842 0) s.idx.toNat

theorem nomust_of_head {idx : Int} (h0 : 0 ≤ idx) (h3 : idx < 3) {f : Field}
    (hf : goIndex Table.p254.fieldList idx = .ok f) :
    (∀ n, f.units ≠ .must n) ∧ f.size = (position (head130842 0) (idx.toNat + 1) - position (head130842 0) idx.toNat)
      ∧ f.size ≤ 11 := by
  have h := (goIndex_ok hf).2
  have : idx.toNat = 0 ∨ idx.toNat = 1 ∨ idx.toNat = 2 := by omega
  rcases this with e | e | e <;> rw [e] at h ⊢ <;>
    (have h := Option.some.inj h; subst h; refine ⟨?_, by decide, by decide⟩; intro n hn; cases hn)

theorem field3 {idx : Int} (h3 : idx = 3) {f : Field} (hf : goIndex Table.p254.fieldList idx = .ok f) :
    f = ⟨"Message ID", 6, .one, false, .must 0, "Msg 24 Part A", "", 0⟩ := by
  have h := (goIndex_ok hf).2
  subst h3
  exact (Option.some.inj h).symm

/-- A field without '=' constraint causes no panic in the variant search. -/
theorem selectVariant_nomust {s : St} {field : Field} {stop bits : Nat} {r : Res? Val}
    (h1 : s.sb ≤ stop) (h2 : stop ≤ m.data.vis.length) (hw : bits ≤ 8 * (stop - s.sb))
    (hne : field.units ≠ .empty) (hm : ∀ n, field.units ≠ .must n) :
    selectVariant tbl m j one s field stop bits r = .ok (s.i, s.d, s.index) ∨
    selectVariant tbl m j one s field stop bits r = .ok (s.i, s.d, s.i) := by
  unfold selectVariant
  cases r with
  | none => exact Or.inl rfl
  | some v =>
    simp only
    cases one with
    | true => exact Or.inl rfl
    | false =>
      right
      simp only [Bool.false_eq_true, if_false, bind, Except.bind]
      cases hfu : j + 1 - s.i with
      | zero => rfl
      | succ fuel =>
        obtain ⟨rn, hn, _⟩ := extractNumber_ok m field (offset := s.bit) h1 h2 hw
        unfold variantLoop variantData
        by_cases hres : field.res = .manufacturer
        · rw [if_pos hres, hn]
          simp only [bind, Except.bind, pure, Except.pure]
        · rw [if_neg hres]
          simp only [bind, Except.bind, pure, Except.pure]

/-- An iteration on a plain field without '=' constraint and without length prefix does not panic. -/
theorem step_noerr {s : St} {e : Panic} (h0 : 0 ≤ s.idx)
    (hd : s.d ∈ tbl) (hne : ∀ d ∈ tbl, ∀ f ∈ d.fieldList, f.units ≠ .empty)
    (hpl : ∀ f ∈ s.d.fieldList, plainField f = true) (hlz : noLZ s.d = true)
    (hm : ∀ f, goIndex s.d.fieldList s.idx = .ok f → ∀ n, f.units ≠ .must n) :
    step tbl env m j one s ≠ .error e := by
  intro h
  obtain ⟨hidx, he | ⟨field, hfi, hsb, hw, he | ⟨r, hr, he⟩⟩⟩ := step_error h
  · obtain ⟨a, ha, _⟩ := goIndex_of_lt h0 hidx
    rw [he] at ha; cases ha
  · obtain ⟨w1, w2⟩ := win_facts _ _ _ hw
    have hfo := goIndex_ok hfi
    obtain ⟨r, hr⟩ := decodeField_safe env m s.d s.data field (bit := s.bit) w1 hw w2
      (hpl field (List.mem_of_getElem? hfo.2)) (fun hres => absurd hres (noLZ_spec hlz hfo.2))
    rw [he] at hr; cases hr
  · obtain ⟨w1, w2⟩ := win_facts _ _ _ hw
    have hfo := goIndex_ok hfi
    rcases selectVariant_nomust (tbl := tbl) (j := j) (one := one) (r := r) w1 hw w2
      (hne s.d hd field (List.mem_of_getElem? hfo.2)) (hm field hfi) with h | h <;>
      (rw [h] at he; cases he)

theorem selectVariant_130842 {s : St} {n : Nat} {stop bits : Nat} (hi : s.i = 254)
    (hd : s.d = Table.p254) (hidx : s.idx = 3) :
    selectVariant Table.pgnList m 255 false s
        ⟨"Message ID", 6, .one, false, .must 0, "Msg 24 Part A", "", 0⟩ stop bits (some (.u64 n)) =
      if n = 0 then .ok (254, Table.p254, 254) else if n = 1 then .ok (255, Table.p255, 255)
      else .error .index := by
  have g1 : goIndex Table.pgnList ((254 : Nat) + 1 : Int) = .ok Table.p255 := by decide +kernel
  have g2 : goIndex Table.p255.fieldList 3 =
      .ok ⟨"Message ID", 6, .one, false, .must 1, "Msg 24 Part B", "", 0⟩ := by decide +kernel
  have g3 : goIndex Table.pgnList ((254 + 1 : Nat) + 1 : Int) = .ok Table.p256 := by decide +kernel
  have g4 : goIndex Table.p256.fieldList 3 = .error .index := by decide +kernel
  unfold selectVariant
  simp only [Bool.false_eq_true, if_false, hi, hd, hidx]
  simp only [variantLoop, variantData, bind, Except.bind, reduceCtorEq, if_false]
  by_cases h0 : n = 0
  · subst h0; rfl
  · rw [if_neg (show (0 : Nat) ≠ n from fun h => h0 h.symm), g1, if_neg h0]
    simp only [g2]
    by_cases h1 : n = 1
    · subst h1; rfl
    · rw [if_neg (show (1 : Nat) ≠ n from fun h => h1 h.symm), g3, if_neg h1]
      simp only [g4]


theorem mem_p254 : Table.p254 ∈ Table.pgnList :=
  List.mem_of_getElem? (i := 254) (by decide +kernel)
theorem mem_p255 : Table.p255 ∈ Table.pgnList :=
  List.mem_of_getElem? (i := 255) (by decide +kernel)

/-- The value of the message id field, when it is read. -/
theorem decode_id {s : St} {dm : DataMap} {d : Pgn} {pos : Nat} (hpos : 8 * s.sb + s.bit = pos)
    (hb : s.bit < 8)
    (hw : winBytes m.data.vis.length ⟨"Message ID", 6, .one, false, .must 0, "Msg 24 Part A", "", 0⟩
      + s.sb ≤ m.data.vis.length) (h1 : 1 ≤ m.data.vis.length) (h2 : s.bit + 6 ≤ 8) :
    decodeField env m d dm ⟨"Message ID", 6, .one, false, .must 0, "Msg 24 Part A", "", 0⟩ s.sb
      (winBytes m.data.vis.length ⟨"Message ID", 6, .one, false, .must 0, "Msg 24 Part A", "", 0⟩
        + s.sb) s.bit
      (winBits m.data.vis.length ⟨"Message ID", 6, .one, false, .must 0, "Msg 24 Part A", "", 0⟩) =
    .ok (some (.u64 (bitsAt m.data.vis pos 6))) := by
  have hw1 : winBytes m.data.vis.length ⟨"Message ID", 6, .one, false, .must 0, "Msg 24 Part A", "", 0⟩
      = 1 := by unfold winBytes; simp only; omega
  have hw2 : winBits m.data.vis.length ⟨"Message ID", 6, .one, false, .must 0, "Msg 24 Part A", "", 0⟩
      = 6 := by unfold winBits; rw [hw1]; rfl
  rw [hw1] at hw ⊢
  rw [hw2]
  unfold decodeField
  simp only
  rw [extractNumber_eq m _ (by omega) hw (by omega), if_neg (by omega)]
  rw [numberValue_raw rfl rfl, hpos]
  congr 3
  congr 1
  omega

/-- Place after a field: right after it, or beyond the message. -/
theorem place_next {len sb bit P : Nat} {f : Field} (hb : bit < 8) (hw : winBytes len f + sb ≤ len)
    (h : 8 * sb + bit = P ∨ len ≤ sb) :
    8 * (sb + (winBits len f + bit) / 8) + (bit + winBits len f) % 8 = P + f.size ∨
      len ≤ sb + (winBits len f + bit) / 8 := by
  rcases h with h | h
  · by_cases hfull : byteCount f.size ≤ len
    · obtain ⟨w1, w2⟩ := winBytes_full hfull
      rw [w2]; left; omega
    · right
      have hsb0 : winBytes len f = len := by unfold winBytes; unfold byteCount at hfull; omega
      have hbits : winBits len f = 8 * len := by
        unfold winBits; rw [hsb0]; unfold byteCount at hfull; omega
      rw [hbits]; omega
  · right; omega

/-- '=' constraints of the two definitions of 130842: only field 3. -/
theorem tail_nomust {d : Pgn} (hd : d = Table.p254 ∨ d = Table.p255) {idx : Int} (h4 : 4 ≤ idx) {f : Field}
    (hf : goIndex d.fieldList idx = .ok f) : ∀ n, f.units ≠ .must n := by
  have hall : ∀ d, d = Table.p254 ∨ d = Table.p255 → d.fieldList.zipIdx.all (fun e => e.2 == 3 ||
      match e.1.units with | .must _ => false | _ => true) = true := by
    rintro d (h | h) <;> subst h <;> decide +kernel
  intro n hn
  have h := (goIndex_ok hf).2
  have := List.all_eq_true.mp (hall d hd) (f, idx.toNat) (List.mem_zipIdx_iff_getElem?.mpr h)
  simp only [hn, Bool.or_false, beq_iff_eq] at this
  omega

/-- The message id as read by ParsePacket, whatever the length of the message. -/
theorem decode_id' {s : St} {dm : DataMap} {d : Pgn} (hb : s.bit < 8)
    (hw : winBytes m.data.vis.length ⟨"Message ID", 6, .one, false, .must 0, "Msg 24 Part A", "", 0⟩
      + s.sb ≤ m.data.vis.length) (hpl : 8 * s.sb + s.bit = 16 ∨ m.data.vis.length ≤ s.sb) :
    ∃ n, decodeField env m d dm ⟨"Message ID", 6, .one, false, .must 0, "Msg 24 Part A", "", 0⟩ s.sb
      (winBytes m.data.vis.length ⟨"Message ID", 6, .one, false, .must 0, "Msg 24 Part A", "", 0⟩
        + s.sb) s.bit
      (winBits m.data.vis.length ⟨"Message ID", 6, .one, false, .must 0, "Msg 24 Part A", "", 0⟩) =
    .ok (some (.u64 n)) ∧ (n = 0 ∨ (3 ≤ m.data.vis.length ∧ n = bitsAt m.data.vis 16 6)) := by
  by_cases hlen : m.data.vis.length = 0
  · refine ⟨0, ?_, Or.inl rfl⟩
    have hw1 : winBytes m.data.vis.length ⟨"Message ID", 6, .one, false, .must 0, "Msg 24 Part A", "", 0⟩
        = 0 := by unfold winBytes; simp only; omega
    have hw2 : winBits m.data.vis.length ⟨"Message ID", 6, .one, false, .must 0, "Msg 24 Part A", "", 0⟩
        = 0 := by unfold winBits; rw [hw1]; rfl
    rw [hw1] at hw ⊢
    rw [hw2]
    unfold decodeField
    simp only
    rw [extractNumber_eq m _ (by omega) hw (by omega), if_neg (by omega)]
    rw [numberValue_raw rfl rfl, Nat.zero_min]
    rfl
  · have hw1 : winBytes m.data.vis.length ⟨"Message ID", 6, .one, false, .must 0, "Msg 24 Part A", "", 0⟩
        = 1 := by unfold winBytes; simp only; omega
    have hpos : 8 * s.sb + s.bit = 16 := by
      rcases hpl with h | h
      · exact h
      · rw [hw1] at hw; omega
    have := decode_id (env := env) (dm := dm) (d := d) hpos hb hw (by omega) (by omega)
    exact ⟨_, this, Or.inr ⟨by rw [hw1] at hw; omega, rfl⟩⟩

/-- C46, PGN 130842: ParsePacket panics exactly when the message has at least three bytes and its
six-bit message id is neither 0 nor 1. -/
theorem C46_130842 (env : Env) (m : RawMessage) (hp : m.pgn = 130842) :
    (∃ e, ParsePacket Table.pgnList env m (.error e)) ↔
      (3 ≤ m.data.vis.length ∧ 2 ≤ bitsAt m.data.vis 16 6) := by
  have hf : first Table.pgnList m.pgn = .ok (254, Table.p254) := by rw [hp]; exact first_130842
  have hl : last Table.pgnList m.pgn = .ok (255, Table.p255) := by rw [hp]; exact last_130842
  constructor
  · -- no panic otherwise
    intro hpanic
    apply Classical.byContradiction
    intro hno
    have hret : ∃ p, ParsePacket Table.pgnList env m (.ok p) := by
      refine returns_of_inv hf hl table_goodRepeat
        (fun s => (s.d = Table.p254 ∧ s.i = 254 ∧ 0 ≤ s.idx ∧ s.idx ≤ 3 ∧ s.bit < 8 ∧
            (8 * s.sb + s.bit = position (head130842 0) s.idx.toNat ∨ m.data.vis.length ≤ s.sb)) ∨
          ((s.d = Table.p254 ∧ s.i = 254 ∨ s.d = Table.p255 ∧ s.i = 255) ∧ 4 ≤ s.idx)) ?_ ?_ ?_
      · exact Or.inl ⟨rfl, rfl, by simp [initSt], by simp [initSt], by simp [initSt], Or.inl rfl⟩
      · intro s s' hP hs
        obtain ⟨field, r, i', d', index', hidx, hfi, hsb, hw, hr, hv, rfl⟩ := step_inl hs
        rcases hP with ⟨hd, hi, h0, h3, hb, hpl⟩ | ⟨hd, h4⟩
        · rw [hd] at hfi
          by_cases h3' : s.idx = 3
          · right
            have hfe := field3 h3' hfi
            subst hfe
            have hr' : ∃ n, r = some (.u64 n) ∧ n ≤ 1 := by
              rw [h3'] at hpl
              obtain ⟨n, hn, hc⟩ := decode_id' (env := env) (dm := s.data) (d := s.d) hb hw hpl
              rw [hr] at hn
              injection hn with hn
              exact ⟨n, hn, by omega⟩
            obtain ⟨n, rfl, hn⟩ := hr'
            rw [show ((254 : Nat) == 255) = false from rfl, selectVariant_130842 hi hd h3'] at hv
            have hres : (d' = Table.p254 ∧ i' = 254 ∨ d' = Table.p255 ∧ i' = 255) := by
              split at hv
              · injection hv with hv; injection hv with e1 e2; injection e2 with e2 e3
                exact Or.inl ⟨e2.symm, e1.symm⟩
              · split at hv
                · injection hv with hv; injection hv with e1 e2; injection e2 with e2 e3
                  exact Or.inr ⟨e2.symm, e1.symm⟩
                · cases hv
            refine ⟨hres, ?_⟩
            simp only
            rw [nextIdx_noRepeat (by rcases hres with ⟨h, _⟩ | ⟨h, _⟩ <;> rw [h] <;> rfl)]
            omega
          · obtain ⟨hm, hsz, hsz2⟩ := nomust_of_head h0 (by omega) hfi
            obtain ⟨e1, e2⟩ := selectVariant_must hm hv
            left
            simp only
            subst e2
            refine ⟨hd, by omega, ?_⟩
            rw [nextIdx_noRepeat (by rw [hd]; rfl)]
            refine ⟨by omega, by omega, by omega, ?_⟩
            rw [show (s.idx + 1).toNat = s.idx.toNat + 1 by omega]
            have hmono := position_mono (head130842 0) (show s.idx.toNat ≤ s.idx.toNat + 1 by omega)
            rcases place_next (f := field) hb hw hpl with h | h
            · left; omega
            · exact Or.inr h
        · right
          have hd2 : s.d = Table.p254 ∨ s.d = Table.p255 := hd.imp And.left And.left
          obtain ⟨e1, e2⟩ := selectVariant_must (tail_nomust hd2 h4 hfi) hv
          simp only
          subst e1 e2
          refine ⟨hd, ?_⟩
          rw [nextIdx_noRepeat (by rcases hd2 with h | h <;> rw [h] <;> rfl)]
          omega
      · intro s e hP hs
        rcases hP with ⟨hd, hi, h0, h3, hb, hpl⟩ | ⟨hd, h4⟩
        · by_cases h3' : s.idx = 3
          · obtain ⟨hidx, he | ⟨field, hfi, hsb, hw, he⟩⟩ := step_error hs
            · obtain ⟨a, ha, _⟩ := goIndex_of_lt h0 hidx
              rw [he] at ha; cases ha
            · rw [hd] at hfi
              have hfe := field3 h3' hfi
              subst hfe
              rw [h3'] at hpl
              obtain ⟨n, hn, hc⟩ := decode_id' (env := env) (dm := s.data) (d := s.d) hb hw hpl
              rcases he with he | ⟨r, hr, he⟩
              · rw [hn] at he; cases he
              · rw [hn] at hr
                injection hr with hr
                rw [← hr, show ((254 : Nat) == 255) = false from rfl,
                  selectVariant_130842 hi hd h3'] at he
                split at he
                · cases he
                · rw [if_pos (by omega)] at he; cases he
          · refine step_noerr (tbl := Table.pgnList) h0 (by rw [hd]; exact mem_p254) table_units
              (table_plain _ (by rw [hd]; exact mem_p254) (by rw [hd]; decide)) (by rw [hd]; decide +kernel) ?_ hs
            intro f hf'
            rw [hd] at hf'
            exact (nomust_of_head h0 (by omega) hf').1
        · have hd2 : s.d = Table.p254 ∨ s.d = Table.p255 := hd.imp And.left And.left
          have hmem : s.d ∈ Table.pgnList := by
            rcases hd2 with h | h <;> rw [h]
            · exact mem_p254
            · exact mem_p255
          exact step_noerr (tbl := Table.pgnList) (by omega) hmem table_units
            (table_plain _ hmem (by rcases hd2 with h | h <;> rw [h] <;> decide))
            (by rcases hd2 with h | h <;> rw [h] <;> decide +kernel)
            (fun f hf' => tail_nomust hd2 h4 hf') hs
    obtain ⟨p, hok⟩ := hret
    obtain ⟨e, he⟩ := hpanic
    cases ParsePacket_det hok he
  · rintro ⟨hlen, hid⟩
    refine panics_of_inv hf hl table_goodRepeat (Before m) ?_ ?_ ?_
    · exact ⟨rfl, rfl, by simp [initSt], by simp [initSt], by simp [initSt], rfl⟩
    · intro s s' hP hs
      obtain ⟨hd, hi, h0, h3, hb, hpos⟩ := hP
      obtain ⟨field, r, i', d', index', hidx, hfi, hsb, hw, hr, hv, rfl⟩ := step_inl hs
      rw [hd] at hfi
      by_cases h3' : s.idx = 3
      · exfalso
        have hfe := field3 h3' hfi
        subst hfe
        rw [h3'] at hpos
        have := decode_id (env := env) (dm := s.data) (d := s.d) hpos hb hw (by omega)
          (by have : position (head130842 0) (3 : Int).toNat = 16 := rfl
              omega)
        rw [hr] at this
        injection this with hr'
        have e16 : position (head130842 0) (3 : Int).toNat = 16 := rfl
        rw [hr', show ((254 : Nat) == 255) = false from rfl, selectVariant_130842 hi hd h3', e16,
          if_neg (by omega), if_neg (by omega)] at hv
        cases hv
      · obtain ⟨hm, hsz, hsz2⟩ := nomust_of_head h0 (by omega) hfi
        obtain ⟨e1, e2⟩ := selectVariant_must hm hv
        subst e2
        have hnx : nextIdx m.data.vis.length s.d s.idx
            (s.sb + (winBits m.data.vis.length field + s.bit) / 8) = s.idx + 1 :=
          nextIdx_noRepeat (by rw [hd]; rfl)
        have hmono := position_mono (head130842 0) (show s.idx.toNat ≤ s.idx.toNat + 1 by omega)
        have hb3 : byteCount field.size ≤ m.data.vis.length := by unfold byteCount; omega
        obtain ⟨w1, w2⟩ := winBytes_full hb3
        refine ⟨hd, by simp only; omega, by simp only; omega, by simp only; omega,
          by simp only; omega, ?_⟩
        simp only
        rw [hnx, show (s.idx + 1).toNat = s.idx.toNat + 1 by omega, w2]
        omega
    · intro s p hP hs
      obtain ⟨hd, hi, h0, h3, hb, hpos⟩ := hP
      obtain ⟨_, hstop | ⟨field, hidx, hfi, hw⟩⟩ := step_inr hs
      · apply hstop
        rw [hd]
        have : Table.p254.fieldList.length = 9 := by decide
        omega
      · rw [hd] at hfi
        have hle : position (head130842 0) s.idx.toNat ≤ 16 := by
          have := position_mono (head130842 0) (show s.idx.toNat ≤ 3 by omega)
          have e16 : position (head130842 0) 3 = 16 := rfl
          omega
        by_cases h3' : s.idx = 3
        · have hfe := field3 h3' hfi
          subst hfe
          rw [h3'] at hpos
          have e16 : position (head130842 0) (3 : Int).toNat = 16 := rfl
          unfold winBytes at hw
          simp only at hw
          omega
        · obtain ⟨hm, hsz, hsz2⟩ := nomust_of_head h0 (by omega) hfi
          have hk : s.idx.toNat = 0 ∨ s.idx.toNat = 1 ∨ s.idx.toNat = 2 := by omega
          have p0 : position (head130842 0) 0 = 0 := rfl
          have p1 : position (head130842 0) 1 = 11 := rfl
          have p2 : position (head130842 0) 2 = 13 := rfl
          have p3 : position (head130842 0) 3 = 16 := rfl
          unfold winBytes at hw
          rcases hk with e | e | e <;> rw [e] at hpos hsz <;>
            simp only [p0, p1, p2, p3, Nat.zero_add, Nat.reduceAdd] at hpos hsz <;> omega

/-! ## PGN 60928 -/

theorem first_60928 : first Table.pgnList 60928 = .ok (3, Table.p3) := by decide +kernel
theorem last_60928 : last Table.pgnList 60928 = .ok (3, Table.p3) := by decide +kernel

/-- The sub-lookup field of the address claim. -/
def functionField : Field :=
  ⟨"Device Function", 8, .lookup2, false, .subLookup "lookupDeviceFunction", "ISO Function", "", 6⟩

theorem p3_field4 : goIndex Table.p3.fieldList 4 = .ok functionField := by decide +kernel

theorem p3_others {idx : Int} (h : idx ≠ 4) {f : Field} (hf : goIndex Table.p3.fieldList idx = .ok f) :
    plainField f = true ∧ f.res ≠ .stringLZ := by
  have hall : Table.p3.fieldList.zipIdx.all (fun e => e.2 == 4 ||
      (plainField e.1 && !(e.1.res == .stringLZ))) = true := by decide +kernel
  have h' := goIndex_ok hf
  have := List.all_eq_true.mp hall (f, idx.toNat) (List.mem_zipIdx_iff_getElem?.mpr h'.2)
  simp only [Bool.or_eq_true, Bool.and_eq_true, beq_iff_eq, Bool.not_eq_true', beq_eq_false_iff_ne] at this
  rcases this with h1 | h1
  · omega
  · exact h1

theorem extractNumber_function {lo hi o w : Nat} (h8 : hi - lo ≤ 8) (h1 : lo ≤ hi) :
    (m.data.cap < hi → extractNumber m functionField lo hi o w = .error .slice) ∧
    (hi ≤ m.data.cap → extractNumber m functionField lo hi o w = .ok none ∨
      ∃ n, extractNumber m functionField lo hi o w = .ok (some (.f64 n .lookup2))) := by
  unfold extractNumber
  rw [if_neg (by omega)]
  constructor
  · intro h
    have : m.data.sub lo hi = .error .slice := by
      unfold Slice.sub; rw [if_neg (by omega)]
    rw [this]; rfl
  · intro h
    have : ∃ r, m.data.sub lo hi = .ok r := by
      unfold Slice.sub; rw [if_pos ⟨h1, h⟩]; exact ⟨_, rfl⟩
    obtain ⟨r, hr⟩ := this
    rw [hr]
    simp only [bind, Except.bind, pure, Except.pure]
    split
    · exact Or.inl rfl
    · exact Or.inr ⟨_, rfl⟩

theorem decode_function {dm : DataMap} (hdm : dm.get 6 = .nil) {sb stop bit bits : Nat}
    (h1 : sb ≤ stop) (h2 : stop ≤ m.data.vis.length) (h8 : stop - sb ≤ 8) :
    (m.data.cap < 7 → decodeField env m Table.p3 dm functionField sb stop bit bits = .error .slice) ∧
    (7 ≤ m.data.cap → ∃ r, decodeField env m Table.p3 dm functionField sb stop bit bits = .ok r) := by
  have ho : fieldOffsets Table.p3 functionField.offset = .ok (6, 7, 1, 7) := by decide +kernel
  have e1 := extractNumber_function (m := m) (lo := 6) (hi := 7) (o := 1) (w := 7) (by omega) (by omega)
  have e2 := extractNumber_function (m := m) (lo := sb) (hi := stop) (o := bit) (w := bits) h8 h1
  have hcap : stop ≤ m.data.cap := by unfold Slice.cap; omega
  have key : decodeField env m Table.p3 dm functionField sb stop bit bits =
      (match extractNumber m functionField 6 7 1 7 with
       | .error e => .error e
       | .ok none => .ok none
       | .ok (some (.f64 k _)) => extractLookupSubfield env m functionField k.toNat sb stop bit bits
       | .ok (some _) => .error .typeAssert) := by
    have hsv : (if 0 ≤ functionField.offset then dm.get functionField.offset.toNat else Val.nil)
        = .nil := by
      rw [if_pos (by decide)]; exact hdm
    change extractLookup2 env m Table.p3 dm functionField sb stop bit bits = _
    unfold extractLookup2
    rw [hsv]
    simp only [ho, bind, Except.bind]
    cases hx : extractNumber m functionField 6 7 1 7 with
    | error e => rfl
    | ok r =>
      cases r with
      | none => rfl
      | some v => cases v <;> rfl
  rw [key]
  constructor
  · intro h; rw [e1.1 h]
  · intro h
    rcases e1.2 h with h | ⟨n, h⟩
    · rw [h]; exact ⟨_, rfl⟩
    · rw [h]
      simp only
      unfold extractLookupSubfield
      rcases e2.2 hcap with h' | ⟨n', h'⟩
      · rw [h']; exact ⟨_, rfl⟩
      · rw [h']; exact ⟨_, rfl⟩

theorem get_none {dm : DataMap} {n k : Nat} (h : dm.map Prod.fst = List.range n) (hk : n ≤ k) :
    dm.get k = .nil := by
  unfold DataMap.get
  have : dm.find? (fun e => e.1 = k) = none := by
    rw [List.find?_eq_none]
    intro e he
    have : e.1 ∈ dm.map Prod.fst := List.mem_map.mpr ⟨e, he, rfl⟩
    rw [h] at this
    simp at this ⊢; omega
  rw [this]

theorem p3_pos4 : position Table.p3.fieldList 4 = 40 := by decide +kernel

/-- Invariant of parsing an address claim. -/
structure Claim (s : St) : Prop where
  def_ : s.d = Table.p3
  eq_ : s.idx = s.odx
  keys : s.data.map Prod.fst = List.range s.odx
  bit_ : s.bit < 8

theorem claim_step {s s' : St} (h : Claim s) (hs : step Table.pgnList env m 3 true s = .ok (.inl s')) :
    Claim s' ∧ ∃ field, goIndex Table.p3.fieldList s.idx = .ok field ∧
      winBytes m.data.vis.length field + s.sb ≤ m.data.vis.length ∧
      s'.idx = s.idx + 1 ∧
      s'.sb = s.sb + (winBits m.data.vis.length field + s.bit) / 8 ∧
      s'.bit = (s.bit + winBits m.data.vis.length field) % 8 ∧
      ∃ r, decodeField env m Table.p3 s.data field s.sb (winBytes m.data.vis.length field + s.sb) s.bit
        (winBits m.data.vis.length field) = .ok r := by
  obtain ⟨hd, he, hk, hb⟩ := h
  obtain ⟨field, r, i', d', index', hidx, hfi, hsb, hw, hr, hv, rfl⟩ := step_inl hs
  obtain ⟨_, _, _, _, v5, _⟩ := selectVariant_bounds hv
  obtain ⟨e1, e2, e3⟩ := v5 rfl
  subst e2
  rw [hd] at hfi hr
  have hnx : nextIdx m.data.vis.length s.d s.idx
      (s.sb + (winBits m.data.vis.length field + s.bit) / 8) = s.idx + 1 :=
    nextIdx_noRepeat (by rw [hd]; rfl)
  have hnew : s.odx ∉ s.data.map Prod.fst := by rw [hk]; simp
  refine ⟨⟨hd, by simp only; rw [hnx]; omega, ?_, by simp only; omega⟩,
    field, hfi, hw, hnx, rfl, rfl, r, hr⟩
  simp only
  rw [DataMap.set_new _ hnew, List.map_append, hk, List.range_succ]; rfl

/-- C46, PGN 60928: ParsePacket panics exactly when the message is empty or has six bytes, and the
buffer behind it has fewer than seven. -/
theorem C46_60928 (env : Env) (m : RawMessage) (hp : m.pgn = 60928) :
    (∃ e, ParsePacket Table.pgnList env m (.error e)) ↔
      ((m.data.vis.length = 0 ∨ m.data.vis.length = 6) ∧ m.data.cap < 7) := by
  have hf : first Table.pgnList m.pgn = .ok (3, Table.p3) := by rw [hp]; exact first_60928
  have hl : last Table.pgnList m.pgn = .ok (3, Table.p3) := by rw [hp]; exact last_60928
  have h4len : functionField.size = 8 := rfl
  constructor
  · intro hpanic
    apply Classical.byContradiction
    intro hno
    have hret : ∃ p, ParsePacket Table.pgnList env m (.ok p) := by
      refine returns_of_inv hf hl table_goodRepeat
        (fun s => Claim s ∧ (8 * s.sb + s.bit = position Table.p3.fieldList s.idx.toNat ∨
          m.data.vis.length ≤ s.sb)) ?_ ?_ ?_
      · exact ⟨⟨rfl, rfl, rfl, by simp [initSt]⟩, Or.inl rfl⟩
      · rintro s s' ⟨hc, hpl⟩ hs
        obtain ⟨hc', field, hfi, hw, e1, e2, e3, _⟩ := claim_step hc hs
        refine ⟨hc', ?_⟩
        have hfo := goIndex_ok hfi
        rw [e1, e2, e3, show (s.idx + 1).toNat = s.idx.toNat + 1 by omega, position_succ, hfo.2]
        exact place_next hc.bit_ hw hpl
      · rintro s e ⟨hc, hpl⟩ hs
        obtain ⟨hd, he, hk, hb⟩ := hc
        obtain ⟨hidx, hbad | ⟨field, hfi, hsb, hw, hbad | ⟨r, hr, hbad⟩⟩⟩ := step_error hs
        · obtain ⟨a, ha, _⟩ := goIndex_of_lt (show 0 ≤ s.idx by omega) hidx
          rw [hbad] at ha; cases ha
        · obtain ⟨w1, w2⟩ := win_facts _ _ _ hw
          rw [hd] at hfi hbad
          by_cases h4 : s.idx = 4
          · rw [h4, p3_field4] at hfi
            injection hfi with hfi
            subst hfi
            rw [h4] at hpl
            have e40 : position Table.p3.fieldList (4 : Int).toNat = 40 := p3_pos4
            have hwb : winBytes m.data.vis.length functionField = min 1 m.data.vis.length := by
              unfold winBytes; rw [h4len]
            have hget : s.data.get 6 = .nil := get_none hk (by omega)
            have := (decode_function (env := env) (m := m) hget (sb := s.sb)
              (stop := winBytes m.data.vis.length functionField + s.sb) (bit := s.bit)
              (bits := winBits m.data.vis.length functionField) w1 hw (by omega)).2
              (by
                have hcl : m.data.vis.length ≤ m.data.cap := by unfold Slice.cap; omega
                apply Classical.byContradiction
                intro h7
                apply hno
                refine ⟨?_, by omega⟩
                rcases hpl with h | h <;> omega)
            obtain ⟨r, hr⟩ := this
            rw [hbad] at hr; cases hr
          · obtain ⟨hpf, hlz⟩ := p3_others h4 hfi
            obtain ⟨r, hr⟩ := decodeField_safe env m Table.p3 s.data field (bit := s.bit) w1 hw w2 hpf
              (fun h => absurd h hlz)
            rw [hbad] at hr; cases hr
        · unfold selectVariant at hbad
          split at hbad
          · rw [if_pos (by decide)] at hbad; cases hbad
          · cases hbad
    obtain ⟨p, hok⟩ := hret
    obtain ⟨e, he⟩ := hpanic
    cases ParsePacket_det hok he
  · rintro ⟨hlen, hcap⟩
    refine panics_of_inv hf hl table_goodRepeat
      (fun s => Claim s ∧ s.idx ≤ 4 ∧
        ((m.data.vis.length = 6 ∧ 8 * s.sb + s.bit = position Table.p3.fieldList s.idx.toNat) ∨
         (m.data.vis.length = 0 ∧ s.sb = 0 ∧ s.bit = 0))) ?_ ?_ ?_
    · refine ⟨⟨rfl, rfl, rfl, by simp [initSt]⟩, by simp [initSt], ?_⟩
      rcases hlen with h | h
      · exact Or.inr ⟨h, rfl, rfl⟩
      · exact Or.inl ⟨h, rfl⟩
    · rintro s s' ⟨hc, h4, hpl⟩ hs
      obtain ⟨hc', field, hfi, hw, e1, e2, e3, r, hr⟩ := claim_step hc hs
      have hlt : s.idx ≠ 4 := by
        intro h4
        rw [h4, p3_field4] at hfi
        injection hfi with hfi
        subst hfi
        have hwb : winBytes m.data.vis.length functionField ≤ 1 := by
          unfold winBytes; rw [h4len]; omega
        have hget : s.data.get 6 = .nil := get_none hc.keys (by have := hc.eq_; omega)
        have := (decode_function (env := env) (m := m) hget (sb := s.sb)
          (stop := winBytes m.data.vis.length functionField + s.sb) (bit := s.bit)
          (bits := winBits m.data.vis.length functionField) (by omega) hw (by omega)).1 hcap
        rw [hr] at this; cases this
      have h0 : 0 ≤ s.idx := by have := hc.eq_; omega
      have hfo := goIndex_ok hfi
      refine ⟨hc', by omega, ?_⟩
      rcases hpl with ⟨hl6, hpos⟩ | ⟨hl0, hs0, hb0⟩
      · left
        refine ⟨hl6, ?_⟩
        have hsz : byteCount field.size ≤ m.data.vis.length := by
          have hall : ∀ k f, k < 4 → Table.p3.fieldList[k]? = some f → f.size ≤ 21 := by
            intro k f hk hf
            have : (Table.p3.fieldList.take 4).all (fun f => decide (f.size ≤ 21)) = true := by
              decide +kernel
            have := List.all_eq_true.mp this f (List.mem_of_getElem? (i := k)
              (by rw [List.getElem?_take_of_lt hk]; exact hf))
            simpa using this
          have := hall s.idx.toNat field (by omega) hfo.2
          unfold byteCount; omega
        obtain ⟨w1, w2⟩ := winBytes_full hsz
        rw [e1, e2, e3, show (s.idx + 1).toNat = s.idx.toNat + 1 by omega, position_succ, hfo.2, w2]
        simp only [Option.map_some, Option.getD_some]
        have := hc.bit_
        omega
      · right
        have : winBits m.data.vis.length field = 0 := by unfold winBits winBytes; omega
        rw [e2, e3, this, hs0, hb0]
        exact ⟨hl0, rfl, rfl⟩
    · rintro s p ⟨hc, h4, hpl⟩ hs
      have h0 : 0 ≤ s.idx := by have := hc.eq_; omega
      obtain ⟨_, hstop | ⟨field, hidx, hfi, hw⟩⟩ := step_inr hs
      · apply hstop
        rw [hc.def_]
        have : Table.p3.fieldList.length = 10 := by decide
        omega
      · rw [hc.def_] at hfi
        have hfo := goIndex_ok hfi
        rcases hpl with ⟨hl6, hpos⟩ | ⟨hl0, hs0, hb0⟩
        · have hall : ∀ k f, k < 5 → Table.p3.fieldList[k]? = some f →
              position Table.p3.fieldList k / 8 + byteCount f.size ≤ 6 := by
            intro k f hk hf
            have : (Table.p3.fieldList.zipIdx.take 5).all (fun e => decide
                (position Table.p3.fieldList e.2 / 8 + byteCount e.1.size ≤ 6)) = true := by
              decide +kernel
            have := List.all_eq_true.mp this (f, k) (List.mem_of_getElem? (i := k)
              (by rw [List.getElem?_take_of_lt hk, List.getElem?_zipIdx, hf]; simp))
            simpa using this
          have h1 := hall s.idx.toNat field (by omega) hfo.2
          have hb := hc.bit_
          have : winBytes m.data.vis.length field ≤ byteCount field.size := by
            unfold winBytes byteCount; omega
          omega
        · have : winBytes m.data.vis.length field ≤ 0 := by unfold winBytes; omega
          omega

/-- C46 is false: PGN 130842 with message id 2, an address claim of 6 bytes, and a length byte that
wraps crash the decoder. -/
theorem C46_false (env : Env) :
    (∃ e, ParsePacket Table.pgnList env ⟨0, 130842, 0, 0, 3, ⟨[0, 0, 2], []⟩⟩ (.error e)) ∧
    (∃ e, ParsePacket Table.pgnList env ⟨0, 60928, 0, 0, 6, ⟨[0, 0, 0, 0, 0, 0], []⟩⟩ (.error e)) ∧
    (∃ e, ParsePacket Table.pgnList env
      ⟨0, 262211, 0, 0, 12, ⟨[0, 0, 0, 0, 0, 0, 0, 0, 0, 0, 0, 250], []⟩⟩ (.error e)) := by
  refine ⟨(C46_130842 env _ rfl).mpr ⟨by decide, by decide⟩,
    (C46_60928 env _ rfl).mpr ⟨by decide, by decide⟩, .slice, 6, ?_⟩
  have hf : first Table.pgnList 262211 = .ok (283, Table.p283) := by decide +kernel
  have hl : last Table.pgnList 262211 = .ok (283, Table.p283) := by decide +kernel
  unfold parsePacketN
  rw [hf, hl]
  rfl

/-- `C46_partial` applies, e.g., to every message of PGN 126208, which has three definitions. -/
example (env : Env) (m : RawMessage) (h : m.pgn = 126208) :
    ∃ p, ParsePacket Table.pgnList env m (.ok p) := by
  refine C46_partial env m (by omega) (by omega) ?_
  intro d hd hdp k f hf hres
  by_cases hn : noLZ d = true
  · exact absurd hres (noLZ_spec hn hf)
  · have := C46_lz_pgns d hd (by simpa using hn)
    rw [hdp, h] at this
    simp at this

end Argo.Nmea2k
