import Verif.Nmea2k.Variant2

set_option autoImplicit false

/-! # C46: exactly when ParsePacket panics, for the shipped table and every message -/

namespace Argo.Nmea2k

open Argo Argo.Nmea2k.Spec

variable {tbl : List Pgn} {env : Env} {m : RawMessage} {j : Nat} {one : Bool}

/-! ## Specification -/

namespace Spec

/-- The definition at `t` is the one a message is read by: the only one, or the one at which the search field by
field ends (`sel`: at each field in turn, definitions whose '=' constraint on that field fails are left behind). -/
def chosen (tbl : List Pgn) (pgn : Nat) (data : List Byte) (t : Nat) : Prop :=
  ∃ i j, definitions tbl pgn i j ∧ ((i = j ∧ t = i) ∨
    (i < j ∧ t ≤ j ∧ ∃ N, ∀ n, N ≤ n → sel tbl data i j n = t))

/-- The definition the message is read by has a length-prefixed string that lies within the message, whose length is
not 0 and leads past byte 255. -/
def overlong (tbl : List Pgn) (pgn : Nat) (data : List Byte) : Prop :=
  ∃ t d k f l, chosen tbl pgn data t ∧ tbl[t]? = some d ∧ d.fieldList[k]? = some f ∧ f.res = .stringLZ ∧
    position d.fieldList k / 8 + (f.size + 7) / 8 ≤ data.length ∧
    data[position d.fieldList k / 8]? = some l ∧ l ≠ 0 ∧ 256 ≤ position d.fieldList k / 8 + l.toNat

end Spec

/-! ## A panic comes from a length-prefixed string -/

theorem panic_lz {i : Nat} {d q : Pgn} (hf : first tbl m.pgn = .ok (i, d))
    (hl : last tbl m.pgn = .ok (j, q)) (hij : i ≤ j) (hd : tbl[i]? = some d)
    (hO : Orderly tbl i j (i == j)) (Q : St → Prop) (h0 : Q (initSt i d))
    (hQ : ∀ s s', Q s → step tbl env m j (i == j) s = .ok (.inl s') → Q s') {e : Panic}
    (h : ParsePacket tbl env m (.error e)) :
    ∃ s field, SafeInv tbl m i j (i == j) s ∧ Q s ∧ s.d.fieldList[s.odx]? = some field ∧
      winBytes m.data.vis.length field + s.sb ≤ m.data.vis.length ∧ field.res = .stringLZ ∧
      8 * s.sb + s.bit = position s.d.fieldList s.odx ∧ ¬ lzSafe m.data.vis s.sb := by
  rw [ParsePacket_iff hf hl] at h
  obtain ⟨n, hn⟩ := h
  obtain ⟨s', ⟨hP, hq⟩, _, herr⟩ := run_inv (fun s => SafeInv tbl m i j (i == j) s ∧ Q s)
    (fun s s' hs hst => ⟨safeInv_step hij hO hs.1 hst, hQ s s' hs.2 hst⟩)
    ⟨⟨⟨rfl, hd, Or.inl ⟨rfl, by simp [initSt]⟩, rfl⟩, Nat.le_refl _,
      by simp only [initSt]; split <;> omega, by simp [initSt], Or.inr (Or.inr (Or.inl rfl))⟩, h0⟩ hn
  obtain ⟨hidx, he | ⟨field, hfi, hsb, hw, he | ⟨r, hr, he⟩⟩⟩ := step_error (herr e rfl)
  · exfalso
    have hg := (hO.good s'.d (List.mem_of_getElem? hP.any.def_)).1
    simp only [noMustInGroup, Bool.and_eq_true, decide_eq_true_eq] at hg
    have h0 : 0 ≤ s'.idx := by
      rcases hP.any.track with ⟨t, _⟩ | ⟨_, _, t | ⟨_, t, _⟩⟩ <;> omega
    obtain ⟨a, ha, _⟩ := goIndex_of_lt h0 hidx
    rw [he] at ha; cases ha
  · rcases orderly_decode (env := env) hO hP hidx hfi hw with ⟨r, hr⟩ | ⟨hres, hio, hp, hns⟩
    · rw [he] at hr; cases hr
    · have hk : s'.idx.toNat = s'.odx := by omega
      rw [hk] at hp
      have hfo := (goIndex_ok hfi).2
      rw [hk] at hfo
      exact ⟨s', field, hP, hq, hfo, hw, hres, hp, hns⟩
  · exfalso
    obtain ⟨i2, d2, x2, hv, _⟩ := safeInv_variant hO hP hidx hfi hw hr
    rw [he] at hv; cases hv

/-! ## The length-prefixed strings of the shipped table -/

/-- What holds of the length-prefixed string `f` at place `k` of definition `t`. -/
def lzField (tbl : List Pgn) (d : Pgn) (t : Nat) (f : Field) (k : Nat) : Bool :=
  decide (k + 1 = d.fieldList.length) && (match f.units with | .must _ => false | _ => true) &&
  decide (8 ≤ position d.fieldList k) && decide (position d.fieldList k < 2048) && decide (1 ≤ f.size) &&
  tbl.all (fun e => e.pgn != d.pgn || (decide (e.repeatingFields = 0) && e.fieldList.zipIdx.all (fun g =>
    match g.1.units with
    | .must _ => decide (position e.fieldList (g.2 + 1) ≤ 8 * (position d.fieldList k / 8 + (f.size + 7) / 8))
    | _ => true))) &&
  (t == 0 || match tbl[t - 1]? with
    | none => false
    | some e => e.pgn != d.pgn || e.fieldList.zipIdx.all (fun g =>
        match g.1.units with | .must _ => decide (g.2 < k) | _ => true))

theorem table_lzField : Table.pgnList.zipIdx.all (fun e => e.1.fieldList.zipIdx.all (fun g =>
    !(g.1.res == .stringLZ) || lzField Table.pgnList e.1 e.2 g.1 g.2)) = true := by decide +kernel

structure LZField (tbl : List Pgn) (d : Pgn) (t : Nat) (f : Field) (k : Nat) : Prop where
  last : k + 1 = d.fieldList.length
  free : ∀ v, f.units ≠ .must v
  lo : 8 ≤ position d.fieldList k
  hi : position d.fieldList k < 2048
  size : 1 ≤ f.size
  group : ∀ e ∈ tbl, e.pgn = d.pgn → e.repeatingFields = 0
  reach : ∀ e ∈ tbl, e.pgn = d.pgn → ∀ (k' : Nat) (g : Field) (v : Nat), e.fieldList[k']? = some g →
    g.units = .must v → position e.fieldList (k' + 1) ≤ 8 * (position d.fieldList k / 8 + (f.size + 7) / 8)
  before : ∀ e, 0 < t → tbl[t - 1]? = some e → e.pgn = d.pgn → ∀ (k' : Nat) (g : Field) (v : Nat),
    e.fieldList[k']? = some g → g.units = .must v → k' < k

theorem table_LZField {t k : Nat} {d : Pgn} {f : Field} (hd : Table.pgnList[t]? = some d)
    (hf : d.fieldList[k]? = some f) (hres : f.res = .stringLZ) : LZField Table.pgnList d t f k := by
  have h := List.all_eq_true.mp table_lzField (d, t) (List.mem_zipIdx_iff_getElem?.mpr hd)
  have h := List.all_eq_true.mp h (f, k) (List.mem_zipIdx_iff_getElem?.mpr hf)
  simp only [hres, BEq.rfl, Bool.not_true, Bool.false_or] at h
  unfold lzField at h
  simp only [Bool.and_eq_true, decide_eq_true_eq] at h
  obtain ⟨⟨⟨⟨⟨⟨h1, h2⟩, h3⟩, h4⟩, h5⟩, h6⟩, h7⟩ := h
  have h6 := List.all_eq_true.mp h6
  refine ⟨h1, ?_, h3, h4, h5, ?_, ?_, ?_⟩
  · intro v hv; rw [hv] at h2; cases h2
  · intro e he hp
    have := h6 e he
    simp only [hp, bne_self_eq_false, Bool.false_or, Bool.and_eq_true, decide_eq_true_eq] at this
    exact this.1
  · intro e he hp k' g v hg hv
    have := h6 e he
    simp only [hp, bne_self_eq_false, Bool.false_or, Bool.and_eq_true, decide_eq_true_eq] at this
    have := List.all_eq_true.mp this.2 (g, k') (List.mem_zipIdx_iff_getElem?.mpr hg)
    simpa [hv] using this
  · intro e ht he hp k' g v hg hv
    rw [he] at h7
    simp only [hp, bne_self_eq_false, Bool.false_or, Bool.or_eq_true, beq_iff_eq] at h7
    rcases h7 with h7 | h7
    · omega
    · have := List.all_eq_true.mp h7 (g, k') (List.mem_zipIdx_iff_getElem?.mpr hg)
      simpa [hv] using this

/-! ## Some facts about the search -/

/-- Definitions skipped after field `k` have a failing constraint there or later. -/
theorem sel_skipped_from {data : List Byte} {i k : Nat} (n : Nat) :
    ∀ x d, sel tbl data i j k ≤ x → x < sel tbl data i j (k + n) → tbl[x]? = some d →
      ∃ k', k ≤ k' ∧ refuses data d k' = true := by
  induction n with
  | zero => intro x d h1 h2; simp only [Nat.add_zero] at h2; omega
  | succ n ih =>
    intro x d h1 h2 hd
    have e : sel tbl data i j (k + (n + 1)) = advance tbl data (k + n) (j + 1 - sel tbl data i j (k + n))
      (sel tbl data i j (k + n)) := rfl
    rw [e] at h2
    have hb := advance_bounds (tbl := tbl) data (k + n) (j + 1 - sel tbl data i j (k + n)) (sel tbl data i j (k + n))
    rcases Nat.lt_or_ge x (sel tbl data i j (k + n)) with h | h
    · exact ih x d h1 h hd
    · exact ⟨k + n, by omega, hb.2.2.1 x d h h2 hd⟩

theorem sel_mono {data : List Byte} {i : Nat} (k n : Nat) : sel tbl data i j k ≤ sel tbl data i j (k + n) := by
  induction n with
  | zero => exact Nat.le_refl _
  | succ n ih =>
    have e : sel tbl data i j (k + (n + 1)) = advance tbl data (k + n) (j + 1 - sel tbl data i j (k + n))
      (sel tbl data i j (k + n)) := rfl
    have hb := (advance_bounds (tbl := tbl) data (k + n) (j + 1 - sel tbl data i j (k + n)) (sel tbl data i j (k + n))).1
    omega

/-! ## A string that leads too far is a panic -/

theorem decode_overlong {d : Pgn} {dm : DataMap} {f : Field} {start stop bit width : Nat} {l : Byte}
    (hres : f.res = .stringLZ) (hg : m.data.vis[start]? = some l) (h0 : l ≠ 0) (hb : start < 256)
    (hl : 256 ≤ start + l.toNat) : decodeField env m d dm f start stop bit width = .error .slice := by
  unfold decodeField
  rw [hres]
  simp only
  rw [C44_partial, hg]
  simp only
  rw [if_neg h0, if_pos hl, if_neg]
  have h1 : l.toNat < 256 := l.toNat_lt
  have h2 : start < m.data.vis.length := (List.getElem?_eq_some_iff.mp hg).1
  omega

/-- A field within the first `b` bytes is read in full. -/
theorem covered {len p size b c : Nat} (h : p + size ≤ 8 * b + 7) (hc : b + c ≤ len) (h1 : 1 ≤ c) :
    p / 8 + byteCount size ≤ len := by
  unfold byteCount
  omega

/-- The reading has come to field `s.odx` in order. -/
structure Upto (i k : Nat) (s : St) : Prop where
  idx : s.idx = s.odx
  le : s.odx ≤ k
  place : 8 * s.sb + s.bit = position s.d.fieldList s.odx
  bit_ : s.bit < 8

theorem overlong_single {t k : Nat} {d q : Pgn} {f : Field} {l : Byte} (hf : first tbl m.pgn = .ok (t, d))
    (hl : last tbl m.pgn = .ok (t, q)) (hgood : ∀ d ∈ tbl, goodRepeat d = true)
    (hF : LZField tbl d t f k) (hd : tbl[t]? = some d) (hk : d.fieldList[k]? = some f) (hres : f.res = .stringLZ)
    (hlen : position d.fieldList k / 8 + (f.size + 7) / 8 ≤ m.data.vis.length)
    (hg : m.data.vis[position d.fieldList k / 8]? = some l) (h0 : l ≠ 0)
    (hfar : 256 ≤ position d.fieldList k / 8 + l.toNat) : ∃ e, ParsePacket tbl env m (.error e) := by
  have hR := hF.group d (List.mem_of_getElem? hd) rfl
  have hlast := hF.last
  have hsz := hF.size
  have cov : ∀ s : St, s.d = d → Upto t k s → ∀ g, goIndex s.d.fieldList s.idx = .ok g →
      s.sb + byteCount g.size ≤ m.data.vis.length ∧ d.fieldList[s.odx]? = some g := by
    intro s hsd hU g hgi
    have hfo := (goIndex_ok hgi).2
    have hidx := hU.idx
    rw [show s.idx.toNat = s.odx by omega, hsd] at hfo
    refine ⟨?_, hfo⟩
    have hp := hU.place
    have hb := hU.bit_
    have hle := hU.le
    rw [hsd] at hp
    have e : s.sb = position d.fieldList s.odx / 8 := by omega
    rw [e]
    by_cases hkk : s.odx = k
    · rw [hkk, hk] at hfo; injection hfo with hfo; subst hfo
      rw [hkk]; unfold byteCount; omega
    · have h2 := position_mono d.fieldList (show s.odx + 1 ≤ k by omega)
      rw [position_succ, hfo] at h2
      simp only [Option.map_some, Option.getD_some] at h2
      exact covered (b := position d.fieldList k / 8) (by omega) hlen (by omega)
  refine panics_of_inv hf hl hgood (fun s => s.d = d ∧ s.i = t ∧ Upto t k s) ⟨rfl, rfl, rfl, Nat.zero_le _, rfl, by simp [initSt]⟩ ?_ ?_
  · rintro s s' ⟨hsd, hsi, hU⟩ hst
    obtain ⟨field, r, i', d', index', hidx, hfi, hsb, hw, hr, hv, rfl⟩ := step_inl hst
    obtain ⟨v1, v2, v3, v4, v5, v6⟩ := selectVariant_bounds hv
    have e1 : i' = s.i := (v5 (by simp)).1
    have e2 : d' = d := (v3 e1).trans hsd
    obtain ⟨hc, hfo⟩ := cov s hsd hU field hfi
    obtain ⟨w1, w2⟩ := winBytes_full (len := m.data.vis.length) (f := field) (by omega)
    have hidx := hU.idx
    have hp := hU.place
    have hle := hU.le
    have hbit := hU.bit_
    rw [hsd] at hp
    by_cases hkk : s.odx = k
    · exfalso
      rw [hkk, hk] at hfo; injection hfo with hfo; subst hfo
      have e : s.sb = position d.fieldList k / 8 := by rw [hkk] at hp; omega
      rw [decode_overlong hres (by rw [e]; exact hg) h0 (by have := hF.hi; omega) (by rw [e]; exact hfar)] at hr
      cases hr
    · refine ⟨e2, by simp only; omega, ?_, by simp only; omega, ?_, by simp only; omega⟩
      · simp only
        unfold nextIdx
        rw [if_neg (by rw [e2, hR]; omega)]
        omega
      · simp only
        rw [e2, w2, position_succ, hfo]
        simp only [Option.map_some, Option.getD_some]
        omega
  · rintro s p ⟨hsd, hsi, hU⟩ hst
    obtain ⟨_, hret⟩ := step_inr hst
    have hidx := hU.idx
    have hle := hU.le
    rcases hret with hret | ⟨field, _, hfi, hret⟩
    · rw [hsd] at hret; omega
    · obtain ⟨hc, _⟩ := cov s hsd hU field hfi
      obtain ⟨w1, _⟩ := winBytes_full (len := m.data.vis.length) (f := field) (by omega)
      rw [w1] at hret
      omega

theorem overlong_several {i t k : Nat} {d d0 q : Pgn} {f : Field} {l : Byte} (hf : first tbl m.pgn = .ok (i, d0))
    (hl : last tbl m.pgn = .ok (j, q)) (hij : i < j) (hd0 : tbl[i]? = some d0) (hdef : definitions tbl m.pgn i j)
    (hgood : ∀ d ∈ tbl, goodRepeat d = true) (hO : Orderly tbl i j false) (hS : SelDefs tbl m.data.vis i j)
    (hF : LZField tbl d t f k) (htj : t ≤ j) (hsel : ∃ N, ∀ n, N ≤ n → sel tbl m.data.vis i j n = t)
    (hd : tbl[t]? = some d) (hk : d.fieldList[k]? = some f) (hres : f.res = .stringLZ)
    (hlen : position d.fieldList k / 8 + (f.size + 7) / 8 ≤ m.data.vis.length)
    (hg : m.data.vis[position d.fieldList k / 8]? = some l) (h0 : l ≠ 0)
    (hfar : 256 ≤ position d.fieldList k / 8 + l.toNat) : ∃ e, ParsePacket tbl env m (.error e) := by
  obtain ⟨N, hN⟩ := hsel
  have hlast := hF.last
  have hsz := hF.size
  have hti : i ≤ t := by have := (sel_bounds (tbl := tbl) (data := m.data.vis) (Nat.le_of_lt hij) N).1; rw [hN N (Nat.le_refl _)] at this; exact this
  have hpd := (hdef.2.2 t d hd).mpr ⟨hti, htj⟩
  have settled : ∀ (s : St), (∀ n, s.odx ≤ n → sel tbl m.data.vis i j n = s.i) → s.i = t := by
    intro s h
    rw [← h (s.odx + N) (by omega), hN _ (by omega)]
  -- while searching, the string has not been reached
  have searching : ∀ s : St, AnyInv tbl s → s.i = sel tbl m.data.vis i j s.odx → i ≤ s.i → s.i ≤ j →
      mustFrom s.d s.odx → s.odx ≤ k → s.odx < k := by
    intro s hany hs hlo hhi hmf hle
    rcases Nat.lt_or_ge s.odx k with h | h
    · exact h
    · exfalso
      have hk' : s.odx = k := by omega
      have hle' := sel_mono (tbl := tbl) (data := m.data.vis) (i := i) (j := j) s.odx N
      rw [hN (s.odx + N) (by omega), ← hs] at hle'
      rcases Nat.lt_or_ge s.i t with hlt | hge
      · obtain ⟨x, hx⟩ : ∃ x, tbl[t - 1]? = some x :=
          ⟨_, List.getElem?_eq_getElem (show t - 1 < tbl.length by have := hdef.2.1; omega)⟩
        have hpx := (hdef.2.2 (t - 1) x hx).mpr ⟨by omega, by omega⟩
        obtain ⟨k', hkk, hr⟩ := sel_skipped_from (tbl := tbl) (data := m.data.vis) (i := i) (j := j) (k := s.odx) N (t - 1) x
          (by omega) (by rw [hN _ (by omega)]; omega) hx
        obtain ⟨g, v, hg1, hg2⟩ := refuses_must hr
        have := hF.before x (by omega) hx (hpx.trans hpd.symm) k' g v hg1 hg2
        omega
      · have e : s.i = t := by omega
        have hdd : s.d = d := by have := hany.def_; rw [e, hd] at this; injection this with this; exact this.symm
        obtain ⟨k', g, v, h1, h2, h3⟩ := hmf
        rw [hdd] at h2
        have hlt' := (List.getElem?_eq_some_iff.mp h2).1
        have : k' = k := by omega
        rw [this, hk] at h2; injection h2 with h2; subst h2
        exact hF.free v h3
  have cov : ∀ s : St, SelInv tbl m i j s → Upto i k s → ∃ g, s.d.fieldList[s.odx]? = some g ∧
      s.sb + byteCount g.size ≤ m.data.vis.length ∧ i ≤ s.i ∧ s.i ≤ j ∧ (s.odx = k → s.d = d) := by
    intro s ⟨hany, hb, h⟩ hU
    have hp := hU.place
    have hle := hU.le
    have e : s.sb = position s.d.fieldList s.odx / 8 := by omega
    rcases h with ⟨_, hs, hlo, hhi, _, hmf⟩ | ⟨hfin, _⟩
    · have hlt := mustFrom_lt hmf
      refine ⟨_, List.getElem?_eq_getElem hlt, ?_, hlo, hhi, fun hk' => ?_⟩
      · rw [e]; exact mustFrom_covers hmf (hS.reach s.i s.d hlo hhi hany.def_) (List.getElem?_eq_getElem hlt)
      · have := searching s hany hs hlo hhi hmf hle
        omega
    · have hst := settled s hfin
      have hsd : s.d = d := by have := hany.def_; rw [hst, hd] at this; injection this with this; exact this.symm
      have hlt : s.odx < d.fieldList.length := by omega
      refine ⟨d.fieldList[s.odx], by rw [hsd]; exact List.getElem?_eq_getElem hlt, ?_, by omega, by omega, fun _ => hsd⟩
      rw [e, hsd]
      by_cases hkk : s.odx = k
      · have : d.fieldList[s.odx] = f := by
          obtain ⟨_, he⟩ := List.getElem?_eq_some_iff.mp hk
          simp only [hkk, he]
        rw [this, hkk]; unfold byteCount; omega
      · have h2 := position_mono d.fieldList (show s.odx + 1 ≤ k by omega)
        rw [position_succ, List.getElem?_eq_getElem hlt] at h2
        simp only [Option.map_some, Option.getD_some] at h2
        exact covered (b := position d.fieldList k / 8) (by omega) hlen (by omega)
  have hone : (i == j) = false := by simpa using (by omega : i ≠ j)
  have hany0 : AnyInv tbl (initSt i d0) := ⟨rfl, hd0, Or.inl ⟨rfl, by simp [initSt]⟩, rfl⟩
  refine panics_of_inv hf hl hgood (fun s => SafeInv tbl m i j false s ∧ SelInv tbl m i j s ∧ Upto i k s) ⟨?_, ?_, rfl, Nat.zero_le _, rfl, by simp [initSt]⟩ ?_ ?_
  · exact ⟨hany0, Nat.le_refl _, by simp only [initSt]; simp; omega, by simp [initSt], Or.inr (Or.inr (Or.inl rfl))⟩
  · by_cases hm : mustFrom d0 0
    · exact ⟨hany0, by simp [initSt], Or.inl ⟨rfl, rfl, Nat.le_refl _, by simp only [initSt]; omega, rfl, hm⟩⟩
    · exact selInv_settle hany0 (by simp [initSt]) rfl (Or.inr hm)
  · rintro s s' ⟨hP, hs, hU⟩ hst
    rw [hone] at hst
    have hP' := safeInv_step (Nat.le_of_lt hij) hO hP hst
    have hs' := selInv_step hS hs hst
    refine ⟨hP', hs', ?_⟩
    obtain ⟨g, hg1, hc, hlo, hhi, hfin⟩ := cov s hs hU
    obtain ⟨field, r, i', d', index', hidx, hfi, hsb, hw, hr, hv, rfl⟩ := step_inl hst
    have hix := hU.idx
    have hp := hU.place
    have hle := hU.le
    have hbit := hU.bit_
    have hfo := (goIndex_ok hfi).2
    rw [show s.idx.toNat = s.odx by omega, hg1] at hfo
    injection hfo with hfo; subst hfo
    obtain ⟨w1, w2⟩ := winBytes_full (len := m.data.vis.length) (f := g) (by omega)
    by_cases hkk : s.odx = k
    · exfalso
      have hsd := hfin hkk
      rw [hsd, hkk, hk] at hg1; injection hg1 with hg1; subst hg1
      have e : s.sb = position d.fieldList k / 8 := by rw [hkk, hsd] at hp; omega
      rw [decode_overlong hres (by rw [e]; exact hg) h0 (by have := hF.hi; omega) (by rw [e]; exact hfar)] at hr
      cases hr
    · obtain ⟨i2, d2, x2, hv2, hpos⟩ := safeInv_variant hO hP hidx hfi hw hr
      rw [hv] at hv2
      injection hv2 with hv2; injection hv2 with e1 e2; injection e2 with e2 e3
      subst e1 e2 e3
      have hi' : i ≤ i' ∧ i' ≤ j := by
        rcases hs'.2.2 with ⟨_, _, a, b, _⟩ | ⟨a, _⟩
        · exact ⟨a, b⟩
        · have := settled _ a; simp only at this; omega
      have hpd' : d'.pgn = m.pgn := (hdef.2.2 i' d' hs'.1.def_).mpr hi'
      have hR := hF.group d' (List.mem_of_getElem? hs'.1.def_) (hpd'.trans hpd.symm)
      refine ⟨?_, by simp only; omega, ?_, by simp only; omega⟩
      · simp only
        unfold nextIdx
        rw [if_neg (by rw [hR]; omega)]
        omega
      · simp only
        rcases hpos with hpos | hpos
        · rw [show s.idx.toNat = s.odx by omega] at hpos
          rw [hpos, w2, position_succ, hg1]
          simp only [Option.map_some, Option.getD_some]
          omega
        · omega
  · rintro s p ⟨hP, hs, hU⟩ hst
    obtain ⟨_, hret⟩ := step_inr hst
    obtain ⟨g, hg1, hc, _⟩ := cov s hs hU
    have hix := hU.idx
    have hlt := (List.getElem?_eq_some_iff.mp hg1).1
    rcases hret with hret | ⟨field, _, hfi, hret⟩
    · omega
    · have hfo := (goIndex_ok hfi).2
      rw [show s.idx.toNat = s.odx by omega, hg1] at hfo
      injection hfo with hfo; subst hfo
      obtain ⟨w1, _⟩ := winBytes_full (len := m.data.vis.length) (f := g) (by omega)
      rw [w1] at hret
      omega

/-! ## The theorem -/

/-- First and last entry of a PGN of the table. -/
theorem definitions_first_last {i jj : Nat} {d q : Pgn} (hf : first Table.pgnList m.pgn = .ok (i, d))
    (hl : last Table.pgnList m.pgn = .ok (jj, q)) {x : Nat} {e : Pgn} (he : Table.pgnList[x]? = some e)
    (hp : e.pgn = m.pgn) : definitions Table.pgnList m.pgn i jj := by
  have hne : Table.pgnList ≠ [] := List.cons_ne_nil _ _
  have hij := C33_first_le_last _ _ hf hl
  obtain ⟨i', d', hf', hd, hi⟩ := C33_first Table.pgnList m.pgn hne
  obtain ⟨j', q', hl', hq, hj⟩ := C33_last Table.pgnList m.pgn hne
  rw [hf] at hf'; injection hf' with hf'; injection hf' with e1 e2; subst e1 e2
  rw [hl] at hl'; injection hl' with hl'; injection hl' with e1 e2; subst e1 e2
  have hmem := List.mem_of_getElem? he
  rcases hi with ⟨hdp, hi⟩ | ⟨_, hi⟩
  · rcases hj with ⟨hqp, hj⟩ | ⟨_, hj⟩
    · refine ⟨hij, (List.getElem?_eq_some_iff.mp hq).1, fun t y hy => ⟨fun h => ⟨?_, ?_⟩, fun h => ?_⟩⟩
      · rcases Nat.lt_or_ge t i with hlt | hge
        · exact absurd h (hi t y hlt hy)
        · exact hge
      · rcases Nat.lt_or_ge jj t with hlt | hge
        · exact absurd h (hj t y hlt hy)
        · exact hge
      · rw [C33_contiguous i t jj d y q h.1 h.2 hd hy hq (by rw [hdp, hqp]), hdp]
    · exact absurd hp (hj e hmem)
  · exact absurd hp (hi e hmem)

theorem definitions_eq {id i j i' j' : Nat} (h : definitions tbl id i j) (h' : definitions tbl id i' j') :
    i' = i ∧ j' = j := by
  obtain ⟨a1, a2, a3⟩ := h
  obtain ⟨b1, b2, b3⟩ := h'
  have ti : i < tbl.length := by omega
  have ti' : i' < tbl.length := by omega
  have x1 := (b3 i _ (List.getElem?_eq_getElem ti)).mp ((a3 i _ (List.getElem?_eq_getElem ti)).mpr ⟨by omega, by omega⟩)
  have x2 := (b3 j _ (List.getElem?_eq_getElem a2)).mp ((a3 j _ (List.getElem?_eq_getElem a2)).mpr ⟨by omega, by omega⟩)
  have x3 := (a3 i' _ (List.getElem?_eq_getElem ti')).mp ((b3 i' _ (List.getElem?_eq_getElem ti')).mpr ⟨by omega, by omega⟩)
  have x4 := (a3 j' _ (List.getElem?_eq_getElem b2)).mp ((b3 j' _ (List.getElem?_eq_getElem b2)).mpr ⟨by omega, by omega⟩)
  omega

/-- Constraints of all definitions are within the message if a length-prefixed string of one is. -/
theorem lz_selDefs {i j t k : Nat} {d : Pgn} {f : Field} (hdef : definitions Table.pgnList m.pgn i j) (hij : i < j)
    (hF : LZField Table.pgnList d t f k) (hp : d.pgn = m.pgn)
    (hlen : position d.fieldList k / 8 + (f.size + 7) / 8 ≤ m.data.vis.length) :
    SelDefs Table.pgnList m.data.vis i j := by
  refine table_selDefs hdef hij fun t' e h1 h2 he k' g v hg hv => ?_
  have := hF.reach e (List.mem_of_getElem? he) (((hdef.2.2 t' e he).mpr ⟨h1, h2⟩).trans hp.symm) k' g v hg hv
  omega

theorem lz_window {len sb : Nat} {f : Field} {p : Nat} (hp : sb = p / 8) (h8 : 8 ≤ p)
    (hw : winBytes len f + sb ≤ len) : p / 8 + (f.size + 7) / 8 ≤ len := by
  unfold winBytes at hw
  omega

/-- Panics of PGNs other than 130842 and 60928. -/
theorem overlong_iff (env : Env) (m : RawMessage) (h1 : m.pgn ≠ 60928) (h2 : m.pgn ≠ 130842) :
    (∃ e, ParsePacket Table.pgnList env m (.error e)) ↔ overlong Table.pgnList m.pgn m.data.vis := by
  obtain ⟨i, jj, d, q, hf, hl, hij, hd, hO, hreach⟩ := table_orderly m h1 h2
  constructor
  · rintro ⟨e, he⟩
    -- some definition of this PGN has a string within the message
    have step1 : ∀ (Q : St → Prop), Q (initSt i d) →
        (∀ s s', Q s → step Table.pgnList env m jj (i == jj) s = .ok (.inl s') → Q s') →
        ∃ s field, SafeInv Table.pgnList m i jj (i == jj) s ∧ Q s ∧ s.d.fieldList[s.odx]? = some field ∧
          field.res = .stringLZ ∧ s.sb = position s.d.fieldList s.odx / 8 ∧
          position s.d.fieldList s.odx / 8 + (field.size + 7) / 8 ≤ m.data.vis.length ∧ s.d.pgn = m.pgn ∧
          LZField Table.pgnList s.d s.i field s.odx ∧ ¬ lzSafe m.data.vis s.sb := by
      intro Q hQ0 hQ
      obtain ⟨s, field, hP, hq, hfo, hw, hres, hpos, hns⟩ := panic_lz hf hl hij hd hO Q hQ0 hQ he
      have hF := table_LZField hP.any.def_ hfo hres
      have hb := hP.bit_
      have e : s.sb = position s.d.fieldList s.odx / 8 := by omega
      refine ⟨s, field, hP, hq, hfo, hres, e, lz_window e hF.lo hw, ?_, hF, hns⟩
      rcases hreach s.i s.d hP.lo hP.hi hP.any.def_ with h | h
      · exact h
      · exact absurd hres (noLZ_spec h hfo)
    have fin : ∀ (s : St) (field : Field), s.d.fieldList[s.odx]? = some field → field.res = .stringLZ →
        s.sb = position s.d.fieldList s.odx / 8 →
        position s.d.fieldList s.odx / 8 + (field.size + 7) / 8 ≤ m.data.vis.length →
        Table.pgnList[s.i]? = some s.d → ¬ lzSafe m.data.vis s.sb → chosen Table.pgnList m.pgn m.data.vis s.i →
        overlong Table.pgnList m.pgn m.data.vis := by
      intro s field hfo hres e hlen hdd hns hch
      have hx : ∃ l, m.data.vis[s.sb]? = some l ∧ l ≠ 0 ∧ 256 ≤ s.sb + l.toNat := by
        apply Classical.byContradiction
        intro hno
        apply hns
        intro l hl h0
        rcases Nat.lt_or_ge (s.sb + l.toNat) 256 with h | h
        · exact h
        · exact absurd ⟨l, hl, h0, h⟩ hno
      obtain ⟨l, x1, x2, x3⟩ := hx
      rw [e] at x1 x3
      exact ⟨s.i, s.d, s.odx, field, l, hch, hdd, hfo, hres, hlen, x1, x2, x3⟩
    obtain ⟨s0, f0, hP0, _, hfo0, hres0, _, hlen0, hp0, hF0, hns0⟩ := step1 (fun _ => True) trivial (fun _ _ _ _ => trivial)
    have hdef := definitions_first_last hf hl hP0.any.def_ hp0
    by_cases hone : i = jj
    · subst hone
      obtain ⟨s, field, hP, _, hfo, hres, e, hlen, hp, hF, hns⟩ := step1 (fun _ => True) trivial (fun _ _ _ _ => trivial)
      refine fin s field hfo hres e hlen hP.any.def_ hns ⟨i, i, hdef, Or.inl ⟨rfl, ?_⟩⟩
      have h1 := hP.lo
      have h2 := hP.hi
      simp at h2
      omega
    · have hlt : i < jj := by omega
      have hS := lz_selDefs hdef hlt hF0 hp0 hlen0
      have hone' : (i == jj) = false := by simpa using hone
      have hany0 : AnyInv Table.pgnList (initSt i d) := ⟨rfl, hd, Or.inl ⟨rfl, by simp [initSt]⟩, rfl⟩
      obtain ⟨s, field, hP, hq, hfo, hres, e, hlen, hp, hF, hns⟩ := step1 (SelInv Table.pgnList m i jj)
        (by by_cases hm : mustFrom d 0
            · exact ⟨hany0, by simp [initSt], Or.inl ⟨rfl, rfl, Nat.le_refl _, by simp only [initSt]; omega, rfl, hm⟩⟩
            · exact selInv_settle hany0 (by simp [initSt]) rfl (Or.inr hm))
        (fun s s' h hst => by rw [hone'] at hst; exact selInv_step hS h hst)
      refine fin s field hfo hres e hlen hP.any.def_ hns ⟨i, jj, hdef, Or.inr ⟨hlt, ?_, ?_⟩⟩
      · exact ((hdef.2.2 s.i s.d hP.any.def_).mp hp).2
      · rcases hq.2.2 with ⟨_, _, _, _, _, k', g, v, hk, hg, hv⟩ | ⟨hfin, _⟩
        · exfalso
          have hlt' := (List.getElem?_eq_some_iff.mp hg).1
          have hlast := hF.last
          have : k' = s.odx := by omega
          rw [this, hfo] at hg; injection hg with hg; subst hg
          exact hF.free v hv
        · exact ⟨s.odx, hfin⟩
  · rintro ⟨t, e, k, f, l, ⟨i', j', hdef', hch⟩, he, hk, hres, hlen, hg, h0, hfar⟩
    have hF := table_LZField he hk hres
    have hpe : e.pgn = m.pgn := by
      rcases hch with ⟨rfl, rfl⟩ | ⟨hlt, htj, N, hN⟩
      · exact (hdef'.2.2 t e he).mpr ⟨Nat.le_refl _, Nat.le_refl _⟩
      · have := (sel_bounds (tbl := Table.pgnList) (data := m.data.vis) (Nat.le_of_lt hlt) N).1
        rw [hN N (Nat.le_refl _)] at this
        exact (hdef'.2.2 t e he).mpr ⟨this, htj⟩
    have hdef := definitions_first_last hf hl he hpe
    obtain ⟨rfl, rfl⟩ := definitions_eq hdef hdef'
    rcases hch with ⟨rfl, rfl⟩ | ⟨hlt, htj, hsel⟩
    · rw [hd] at he; injection he with he; subst he
      exact overlong_single hf hl table_goodRepeat hF hd hk hres hlen hg h0 hfar
    · have hone' : (i' == j') = false := by simpa using (by omega : i' ≠ j')
      rw [hone'] at hO
      exact overlong_several hf hl hlt hd hdef table_goodRepeat hO (lz_selDefs hdef hlt hF hpe hlen) hF htj hsel he hk hres
        hlen hg h0 hfar

/-- **C46** (exact): with the shipped table ParsePacket panics on a message exactly if it is one of PGN 130842 with at
least three bytes and a message id other than 0 and 1, one of PGN 60928 with no byte or with six bytes in a buffer of
less than seven, or one whose definition has a length-prefixed string that lies within the message and whose length
leads past byte 255.  On every other message, of any PGN, known or not, it returns. -/
theorem C46_exact (env : Env) (m : RawMessage) :
    (∃ e, ParsePacket Table.pgnList env m (.error e)) ↔
      (m.pgn = 130842 ∧ 3 ≤ m.data.vis.length ∧ 2 ≤ bitsAt m.data.vis 16 6) ∨
      (m.pgn = 60928 ∧ (m.data.vis.length = 0 ∨ m.data.vis.length = 6) ∧ m.data.cap < 7) ∨
      (m.pgn ∈ [130816, 130820, 130847, 262211, 262212, 262213] ∧ overlong Table.pgnList m.pgn m.data.vis) := by
  by_cases h1 : m.pgn = 60928
  · rw [C46_60928 env m h1]
    constructor
    · intro h; exact Or.inr (Or.inl ⟨h1, h⟩)
    · rintro (⟨h, _⟩ | ⟨_, h⟩ | ⟨h, _⟩)
      · omega
      · exact h
      · rw [h1] at h; exact absurd h (by decide)
  · by_cases h2 : m.pgn = 130842
    · rw [C46_130842 env m h2]
      constructor
      · intro h; exact Or.inl ⟨h2, h⟩
      · rintro (⟨_, h⟩ | ⟨h, _⟩ | ⟨h, _⟩)
        · exact h
        · omega
        · rw [h2] at h; exact absurd h (by decide)
    · rw [overlong_iff env m h1 h2]
      constructor
      · intro h
        refine Or.inr (Or.inr ⟨?_, h⟩)
        obtain ⟨t, d, k, f, l, ⟨i, j, hdef, hch⟩, hd, hk, hres, _⟩ := h
        have hp : d.pgn = m.pgn := by
          rcases hch with ⟨rfl, rfl⟩ | ⟨hlt, htj, N, hN⟩
          · exact (hdef.2.2 t d hd).mpr ⟨Nat.le_refl _, Nat.le_refl _⟩
          · have := (sel_bounds (tbl := Table.pgnList) (data := m.data.vis) (Nat.le_of_lt hlt) N).1
            rw [hN N (Nat.le_refl _)] at this
            exact (hdef.2.2 t d hd).mpr ⟨this, htj⟩
        rw [← hp]
        refine C46_lz_pgns d (List.mem_of_getElem? hd) ?_
        cases hn : noLZ d with
        | false => rfl
        | true => exact absurd hres (noLZ_spec hn hk)
      · rintro (⟨h, _⟩ | ⟨h, _⟩ | ⟨_, h⟩)
        · exact absurd h h2
        · exact absurd h h1
        · exact h

/-- **C47** (exact, all PGNs with several definitions, 130816 and 130820 included): a message that reaches the '='
constraints is read by the definition at which the search field by field ends. -/
theorem C47_search {i j : Nat} (hdef : definitions Table.pgnList m.pgn i j) (hij : i < j)
    (hr : ∀ t d, i ≤ t → t ≤ j → Table.pgnList[t]? = some d → reachesConstraints m.data.vis d)
    {p : Parsed} (h : ParsePacket Table.pgnList env m (.ok p)) :
    ∃ N, ∀ n, N ≤ n → sel Table.pgnList m.data.vis i j n = p.index := by
  obtain ⟨d, q, hf, hl, hd, hq⟩ := first_last_of_definitions hdef
  obtain ⟨N, hN⟩ := index_eq_sel hf hl hij hd (table_selDefs hdef hij hr) h
  exact ⟨N, fun n hn => (hN n hn).symm⟩

/-! ## Examples -/

/-- The search is over after the last field of the definition it has come to. -/
theorem sel_done {data : List Byte} {i K t : Nat} {d : Pgn} (h : sel tbl data i j K = t) (hd : tbl[t]? = some d)
    (hK : d.fieldList.length ≤ K) : ∃ N, ∀ n, N ≤ n → sel tbl data i j n = t := by
  refine ⟨K, fun n hn => ?_⟩
  obtain ⟨c, rfl⟩ := Nat.exists_eq_add_of_le hn
  rw [sel_final (d := d) (by rw [h]; exact hd), h]
  intro k' hk'
  unfold refuses
  rw [List.getElem?_eq_none (by omega)]

/-- The title of a track from a Fusion radio (PGN 130820, message 5) with a length of 250 at byte 9. -/
def fusionTrack (l : Byte) : RawMessage :=
  ⟨0, 130820, 0, 0, 19, ⟨[0xa3, 0x99, 5, 0, 0, 0, 0, 0, 0, l, 65, 66, 67, 68, 69, 70, 71, 72, 73], []⟩⟩

/-- It kills the process, and with a length of 10 it is read. -/
example (env : Env) : (∃ e, ParsePacket Table.pgnList env (fusionTrack 250) (.error e)) ∧
    ∃ p, ParsePacket Table.pgnList env (fusionTrack 10) (.ok p) := by
  have hdef : definitions Table.pgnList 130820 202 238 := definitionsB_spec (by decide +kernel)
  have h206 : Table.pgnList[206]? = some Table.p206 := by decide +kernel
  constructor
  · rw [C46_exact]
    refine Or.inr (Or.inr ⟨by decide, 206, Table.p206, 6, _, 250, ⟨202, 238, hdef, Or.inr ⟨by omega, by omega, ?_⟩⟩, h206,
      rfl, rfl, by decide +kernel, by decide +kernel, by decide, by decide +kernel⟩)
    exact sel_done (K := 20) (d := Table.p206) (by decide +kernel) h206 (by decide +kernel)
  · obtain ⟨r, hr⟩ := C45_terminates env (fusionTrack 10)
    cases r with
    | ok p => exact ⟨p, hr⟩
    | error e =>
      exfalso
      have := (C46_exact env (fusionTrack 10)).mp ⟨e, hr⟩
      rcases this with ⟨h, _⟩ | ⟨h, _⟩ | ⟨_, t, d, k, f, l, _, hd, hk, hres, hlen, hg, h0, hfar⟩
      · exact absurd h (by decide)
      · exact absurd h (by decide)
      · -- no byte of this message leads past byte 255
        have hF := table_LZField hd hk hres
        have h19 : (fusionTrack 10).data.vis.length = 19 := rfl
        rw [h19] at hlen
        have key : ∀ b : Fin 19, ∀ l, (fusionTrack 10).data.vis[b.val]? = some l → b.val + l.toNat < 256 := by
          intro b l hl
          have : ∀ b : Fin 19, ((fusionTrack 10).data.vis[b.val]?.all fun l => decide (b.val + l.toNat < 256)) = true := by
            decide +kernel
          have := this b
          rw [hl] at this
          simpa using this
        have hlt := (List.getElem?_eq_some_iff.mp hg).1
        rw [h19] at hlt
        have := key ⟨_, hlt⟩ l hg
        simp only at this
        omega

end Argo.Nmea2k
