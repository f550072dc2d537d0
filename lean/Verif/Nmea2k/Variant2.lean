import Verif.Nmea2k.Variant

set_option autoImplicit false

/-! # C47: the selected definition, for the shipped table -/

namespace Argo.Nmea2k

open Argo Argo.Nmea2k.Spec

variable {tbl : List Pgn} {env : Env} {m : RawMessage} {j : Nat}

/-! ## First and Last of a PGN -/

theorem first_last_of_definitions {id i j : Nat} (h : definitions tbl id i j) :
    ∃ d q, first tbl id = .ok (i, d) ∧ last tbl id = .ok (j, q) ∧ tbl[i]? = some d ∧
      tbl[j]? = some q := by
  obtain ⟨hij, hj, hdef⟩ := h
  have hne : tbl ≠ [] := by rintro rfl; simp at hj
  obtain ⟨i', d, hf, hd, hi⟩ := C33_first tbl id hne
  obtain ⟨j', q, hl, hq, hjj⟩ := C33_last tbl id hne
  have hti := List.getElem?_eq_getElem (show i < tbl.length by omega)
  have htj := List.getElem?_eq_getElem hj
  have pi := (hdef i _ hti).mpr ⟨Nat.le_refl _, hij⟩
  have pj := (hdef j _ htj).mpr ⟨hij, Nat.le_refl _⟩
  have ei : i' = i := by
    rcases hi with ⟨h1, h2⟩ | ⟨_, h2⟩
    · have a1 := (hdef i' d hd).mp h1
      rcases Nat.lt_or_ge i i' with h | h
      · exact absurd pi (h2 i _ h hti)
      · omega
    · exact absurd pi (h2 _ (List.mem_of_getElem? hti))
  have ej : j' = j := by
    rcases hjj with ⟨h1, h2⟩ | ⟨_, h2⟩
    · have a1 := (hdef j' q hq).mp h1
      rcases Nat.lt_or_ge j' j with h | h
      · exact absurd pj (h2 j _ h htj)
      · omega
    · exact absurd pi (h2 _ (List.mem_of_getElem? hti))
  subst ei ej
  exact ⟨d, q, hf, hl, hd, hq⟩

/-- C47, range: the index of a result lies between the first and one past the last definition of the
PGN; with a single definition it is that definition. For every table and message. -/
theorem C47_range {i j : Nat} (hdef : definitions tbl m.pgn i j) {p : Parsed}
    (h : ParsePacket tbl env m (.ok p)) : i ≤ p.index ∧ p.index ≤ j + 1 ∧ (i = j → p.index = i) := by
  obtain ⟨d, q, hf, hl, hd, hq⟩ := first_last_of_definitions hdef
  rw [ParsePacket_iff hf hl] at h
  obtain ⟨n, hn⟩ := h
  obtain ⟨s', hP, hok, _⟩ := run_inv
    (fun s => s.index = s.i ∧ i ≤ s.i ∧ s.i ≤ j + 1 ∧ (i = j → s.i = i)) (by
      intro s s' ⟨h1, h2, h3, h4⟩ hs
      obtain ⟨field, r, i', d', index', hidx, hf, hsb, hw, hr, hv, rfl⟩ := step_inl hs
      obtain ⟨v1, v2, v3, v4, v5, v6⟩ := selectVariant_bounds hv
      have hm : max s.i (j + 1) = j + 1 := by omega
      refine ⟨?_, by simp only; omega, by simp only; omega, fun e => ?_⟩
      · simp only; rcases v6 with h | ⟨h, h'⟩ <;> omega
      · simp only
        have := (v5 (by simpa using e)).1
        have := h4 e
        omega)
    ⟨rfl, Nat.le_refl _, by have := hdef.1; simp only [initSt]; omega, fun _ => rfl⟩ hn
  obtain ⟨he, _⟩ := step_inr (hok p rfl)
  subst he
  obtain ⟨h1, h2, h3, h4⟩ := hP
  simp only
  exact ⟨by omega, by omega, fun e => by have := h4 e; omega⟩

/-! ## When the field-by-field search finds the right definition -/

/-- Moving from `d` to `d'` because of an '=' field `k` of `d` overlooks nothing: the constraints of
`d'` on earlier fields are also constraints of `d`. -/
def tidyStep (d d' : Pgn) : Bool :=
  d.fieldList.zipIdx.all fun e =>
    match e.1.units with
    | .must _ => d'.fieldList.zipIdx.all fun e' =>
        match e'.1.units with
        | .must v => decide (e.2 ≤ e'.2) ||
            (match d.fieldList[e'.2]? with
             | some g => g.units == .must v && decide (g.size = e'.1.size) &&
                decide (position d.fieldList e'.2 = position d'.fieldList e'.2)
             | none => false)
        | _ => true
    | _ => true

theorem tidyStep_spec {data : List Byte} {d d' : Pgn} (h : tidyStep d d' = true) {k k' : Nat}
    (hr : refuses data d k = true) (hk : k' < k) (hr' : refuses data d' k' = true) :
    refuses data d k' = true := by
  obtain ⟨f, v, hf, hu⟩ := refuses_must hr
  obtain ⟨f', v', hf', hu'⟩ := refuses_must hr'
  have h1 := List.all_eq_true.mp h (f, k) (List.mem_zipIdx_iff_getElem?.mpr hf)
  simp only [hu] at h1
  have h2 := List.all_eq_true.mp h1 (f', k') (List.mem_zipIdx_iff_getElem?.mpr hf')
  simp only [hu'] at h2
  rw [Bool.or_eq_true] at h2
  rcases h2 with h2 | h2
  · simp at h2; omega
  · cases hg : d.fieldList[k']? with
    | none => simp only [hg] at h2; cases h2
    | some g =>
      simp only [hg, Bool.and_eq_true, beq_iff_eq, decide_eq_true_eq] at h2
      obtain ⟨⟨g1, g2⟩, g3⟩ := h2
      unfold refuses at hr' ⊢
      rw [hf'] at hr'; rw [hg]
      simp only [hu'] at hr'
      simp only [g1, g2, g3]
      exact hr'

/-- Along the chain of refusing definitions nothing is overlooked. -/
theorem advance_tidy {data : List Byte} {k : Nat} : ∀ fuel t,
    (∀ x d d', t ≤ x → x + 1 < t + fuel → tbl[x]? = some d → tbl[x + 1]? = some d' →
      tidyStep d d' = true) →
    (∀ d, tbl[t]? = some d → ∀ k', k' < k → refuses data d k' = false) →
    advance tbl data k fuel t < t + fuel →
    ∀ d, tbl[advance tbl data k fuel t]? = some d → ∀ k', k' < k → refuses data d k' = false := by
  intro fuel
  induction fuel with
  | zero => intro t _ _ h; simp only [advance] at h; omega
  | succ fuel ih =>
    intro t ht h0 hlt d hd
    unfold advance at hlt hd
    cases hg : tbl[t]? with
    | none => simp only [hg] at hd; cases hd
    | some e =>
      simp only [hg] at hlt hd
      by_cases hr : refuses data e k = true
      · rw [if_pos hr] at hlt hd
        refine ih (t + 1) (fun x a b h1 h2 => ht x a b (by omega) (by omega)) ?_ (by omega) d hd
        intro e' he' k' hk'
        cases hx : refuses data e' k' with
        | false => rfl
        | true =>
          have hb := (advance_bounds (tbl := tbl) data k fuel (t + 1)).1
          have := tidyStep_spec (ht t e e' (Nat.le_refl _) (by omega) hg he') hr hk' hx
          rw [h0 e hg k' hk'] at this; cases this
      · rw [if_neg hr] at hd
        exact h0 d hd

theorem sel_bounds {data : List Byte} {i : Nat} (hij : i ≤ j) (k : Nat) :
    i ≤ sel tbl data i j k ∧ sel tbl data i j k ≤ j + 1 := by
  induction k with
  | zero => exact ⟨Nat.le_refl _, by show i ≤ j + 1; omega⟩
  | succ k ih =>
    have := advance_bounds (tbl := tbl) data k (j + 1 - sel tbl data i j k) (sel tbl data i j k)
    have e : sel tbl data i j (k + 1) =
      advance tbl data k (j + 1 - sel tbl data i j k) (sel tbl data i j k) := rfl
    rw [e]; omega

/-- Skipped definitions have a failing constraint. -/
theorem sel_skipped {data : List Byte} {i : Nat} (hij : i ≤ j) (k : Nat) :
    ∀ x d, i ≤ x → x < sel tbl data i j k → tbl[x]? = some d → ∃ k', refuses data d k' = true := by
  induction k with
  | zero => intro x d h1 h2; simp only [sel] at h2; omega
  | succ k ih =>
    intro x d h1 h2 hd
    have hb := advance_bounds (tbl := tbl) data k (j + 1 - sel tbl data i j k) (sel tbl data i j k)
    rcases Nat.lt_or_ge x (sel tbl data i j k) with h | h
    · exact ih x d h1 h hd
    · exact ⟨k, hb.2.2.1 x d h h2 hd⟩

theorem sel_tidy {data : List Byte} {i : Nat} (hij : i ≤ j)
    (ht : ∀ t d d', i ≤ t → t + 1 ≤ j → tbl[t]? = some d → tbl[t + 1]? = some d' →
      tidyStep d d' = true) (k : Nat) :
    sel tbl data i j k ≤ j → ∀ d, tbl[sel tbl data i j k]? = some d → ∀ k', k' < k →
      refuses data d k' = false := by
  induction k with
  | zero => intro _ d _ k' hk'; omega
  | succ k ih =>
    intro hle d hd k' hk'
    obtain ⟨b1, b2⟩ := sel_bounds (tbl := tbl) (data := data) hij k
    have hb := advance_bounds (tbl := tbl) data k (j + 1 - sel tbl data i j k) (sel tbl data i j k)
    have e : sel tbl data i j (k + 1) =
      advance tbl data k (j + 1 - sel tbl data i j k) (sel tbl data i j k) := rfl
    rw [e] at hle hd
    by_cases hk : k' = k
    · subst hk; exact hb.2.2.2 d (by omega) hd
    · exact advance_tidy _ _ (fun x a b h1 h2 => ht x a b (by omega) (by omega))
        (fun a ha => ih (by omega) a ha) (by omega) d hd k' (by omega)

/-- C47 for any table whose definitions of the PGN are laid out alike and ordered tidily: the index is
the first definition all of whose '=' constraints hold on the message; if none does, it is one past
the last definition. -/
theorem C47_general {i : Nat} (hdef : definitions tbl m.pgn i j) (hij : i < j)
    (hS : SelDefs tbl m.data.vis i j)
    (ht : ∀ t d d', i ≤ t → t + 1 ≤ j → tbl[t]? = some d → tbl[t + 1]? = some d' →
      tidyStep d d' = true) {p : Parsed} (h : ParsePacket tbl env m (.ok p)) :
    (∀ d, p.index ≤ j → tbl[p.index]? = some d → satisfied m.data.vis d) ∧
    (∀ x d, i ≤ x → x < p.index → tbl[x]? = some d → ¬ satisfied m.data.vis d) := by
  obtain ⟨d, q, hf, hl, hd, hq⟩ := first_last_of_definitions hdef
  obtain ⟨N, hN⟩ := index_eq_sel hf hl hij hd hS h
  refine ⟨fun d hle hd k => ?_, fun x d h1 h2 hd hs => ?_⟩
  · have e := hN (N + k + 1) (by omega)
    rw [e] at hle hd
    exact sel_tidy (by omega) ht (N + k + 1) hle d hd k (by omega)
  · rw [hN N (Nat.le_refl _)] at h2
    obtain ⟨k', hk'⟩ := sel_skipped (by omega) N x d h1 h2 hd
    rw [hs k'] at hk'; cases hk'

/-! ## The shipped table -/

/-- The check on entry `t` and its successor. -/
def variantCheck (tbl : List Pgn) (e : Pgn × Nat) : Bool :=
  match tbl[e.2 + 1]? with
  | none => true
  | some d' => d'.pgn != e.1.pgn ||
      (mustOK e.1 && mustOK d' && sameField e.1 d' &&
        (e.1.pgn == 130816 || e.1.pgn == 130820 || tidyStep e.1 d'))

theorem table_variantCheck : Table.pgnList.zipIdx.all (variantCheck Table.pgnList) = true := by
  decide +kernel

theorem table_variant {id i j : Nat} (hdef : definitions Table.pgnList id i j) {t : Nat} {d d' : Pgn}
    (h1 : i ≤ t) (h2 : t + 1 ≤ j) (hd : Table.pgnList[t]? = some d)
    (hd' : Table.pgnList[t + 1]? = some d') :
    mustOK d = true ∧ mustOK d' = true ∧ sameField d d' = true ∧
      (id ≠ 130816 → id ≠ 130820 → tidyStep d d' = true) := by
  have h := List.all_eq_true.mp table_variantCheck (d, t) (List.mem_zipIdx_iff_getElem?.mpr hd)
  have p1 := (hdef.2.2 t d hd).mpr ⟨h1, by omega⟩
  have p2 := (hdef.2.2 (t + 1) d' hd').mpr ⟨by omega, h2⟩
  unfold variantCheck at h
  simp only [hd', Bool.or_eq_true, Bool.and_eq_true, bne_iff_ne, beq_iff_eq] at h
  rcases h with h | ⟨⟨⟨a, b⟩, c⟩, e⟩
  · exact absurd (p2.trans p1.symm) h
  · refine ⟨a, b, c, fun n1 n2 => ?_⟩
    rcases e with (e | e) | e
    · exact absurd (p1.symm.trans e) n1
    · exact absurd (p1.symm.trans e) n2
    · exact e

theorem table_selDefs {id i j : Nat} (hdef : definitions Table.pgnList id i j) (hij : i < j)
    {data : List Byte} (hr : ∀ t d, i ≤ t → t ≤ j → Table.pgnList[t]? = some d →
      reachesConstraints data d) : SelDefs Table.pgnList data i j := by
  refine ⟨table_noMustInGroup, fun t d h1 h2 hd => ?_, hr⟩
  have hj := hdef.2.1
  refine ⟨?_, fun d' h3 hd' => (table_variant hdef h1 h3 hd hd').2.2.1⟩
  by_cases e : t = j
  · have hd0 := List.getElem?_eq_getElem (show t - 1 < Table.pgnList.length by omega)
    exact (table_variant hdef (t := t - 1) (by omega) (by omega) hd0
      (by rw [show t - 1 + 1 = t by omega]; exact hd)).2.1
  · have hd1 := List.getElem?_eq_getElem (show t + 1 < Table.pgnList.length by omega)
    exact (table_variant hdef h1 (by omega) hd hd1).1

/-- C47 (partial): for every PGN of the shipped table with several definitions other than 130816 and
130820, and every message that reaches the constrained fields: the result is the first definition of
that PGN all of whose '=' constraints hold; when there is none, it is one past the last definition,
which belongs to another PGN. -/
theorem C47_partial {i j : Nat} (hdef : definitions Table.pgnList m.pgn i j) (hij : i < j)
    (h1 : m.pgn ≠ 130816) (h2 : m.pgn ≠ 130820)
    (hr : ∀ t d, i ≤ t → t ≤ j → Table.pgnList[t]? = some d → reachesConstraints m.data.vis d)
    {p : Parsed} (h : ParsePacket Table.pgnList env m (.ok p)) :
    (i ≤ p.index ∧ p.index ≤ j ∧ (∃ d, Table.pgnList[p.index]? = some d ∧ d.pgn = m.pgn ∧
        satisfied m.data.vis d) ∧
      ∀ x d, i ≤ x → x < p.index → Table.pgnList[x]? = some d → ¬ satisfied m.data.vis d) ∨
    (p.index = j + 1 ∧ (∀ d, Table.pgnList[p.index]? = some d → d.pgn ≠ m.pgn) ∧
      ∀ x d, i ≤ x → x ≤ j → Table.pgnList[x]? = some d → ¬ satisfied m.data.vis d) := by
  obtain ⟨r1, r2, _⟩ := C47_range hdef h
  obtain ⟨g1, g2⟩ := C47_general hdef hij (table_selDefs hdef hij hr)
    (fun t d d' a b c e => (table_variant hdef a b c e).2.2.2 h1 h2) h
  by_cases hle : p.index ≤ j
  · left
    have hd := List.getElem?_eq_getElem (show p.index < Table.pgnList.length by have := hdef.2.1; omega)
    exact ⟨r1, hle, ⟨_, hd, (hdef.2.2 _ _ hd).mpr ⟨r1, hle⟩, g1 _ hle hd⟩, g2⟩
  · right
    have e : p.index = j + 1 := by omega
    refine ⟨e, fun d hd hp => ?_, fun x d a b => g2 x d a (by omega)⟩
    have := (hdef.2.2 _ d hd).mp hp
    omega

/-- A PGN with a single definition: the result is that definition, whatever the message; its '='
constraints are not looked at. -/
theorem C47_single {i : Nat} (hdef : definitions tbl m.pgn i i) {p : Parsed}
    (h : ParsePacket tbl env m (.ok p)) : p.index = i :=
  (C47_range hdef h).2.2 rfl

/-! ## Where the claim fails -/

def definitionsB (tbl : List Pgn) (id i j : Nat) : Bool :=
  decide (i ≤ j) && decide (j < tbl.length) &&
    tbl.zipIdx.all (fun e => (e.1.pgn == id) == (decide (i ≤ e.2) && decide (e.2 ≤ j)))

theorem definitionsB_spec {id i j : Nat} (h : definitionsB tbl id i j = true) :
    definitions tbl id i j := by
  unfold definitionsB at h
  simp only [Bool.and_eq_true, decide_eq_true_eq] at h
  refine ⟨h.1.1, h.1.2, fun t d hd => ?_⟩
  have := List.all_eq_true.mp h.2 (d, t) (List.mem_zipIdx_iff_getElem?.mpr hd)
  simp only [beq_iff_eq] at this
  by_cases e : d.pgn = id
  · simp only [e, beq_self_eq_true] at this
    have := this.symm
    simp only [Bool.and_eq_true, decide_eq_true_eq] at this
    exact ⟨fun _ => this, fun _ => e⟩
  · have hb : (d.pgn == id) = false := by simpa using e
    rw [hb] at this
    refine ⟨fun h => absurd h e, fun h => ?_⟩
    have h' : (decide (i ≤ t) && decide (t ≤ j)) = true := by
      simp only [Bool.and_eq_true, decide_eq_true_eq]; exact h
    rw [h'] at this; cases this

/-- All constrained fields end within the first `n` bytes. -/
def reachB (tbl : List Pgn) (i j n : Nat) : Bool :=
  tbl.zipIdx.all fun x => !(decide (i ≤ x.2) && decide (x.2 ≤ j)) ||
    x.1.fieldList.zipIdx.all fun e =>
      match e.1.units with
      | .must _ => decide (position x.1.fieldList (e.2 + 1) ≤ 8 * n)
      | _ => true

theorem reachB_spec {i j n : Nat} (h : reachB tbl i j n = true) {data : List Byte}
    (hn : n ≤ data.length) : ∀ t d, i ≤ t → t ≤ j → tbl[t]? = some d → reachesConstraints data d := by
  intro t d h1 h2 hd k f v hf hu
  have h := List.all_eq_true.mp h (d, t) (List.mem_zipIdx_iff_getElem?.mpr hd)
  simp only [Bool.or_eq_true, Bool.not_eq_true', Bool.and_eq_false_iff, decide_eq_false_iff_not] at h
  rcases h with h | h
  · omega
  · have h := List.all_eq_true.mp h (f, k) (List.mem_zipIdx_iff_getElem?.mpr hf)
    simp only [hu, decide_eq_true_eq] at h
    omega

/-- The search on given readings of the constrained bits instead of a message. -/
def refusesR (read : Nat → Nat → Nat) (d : Pgn) (k : Nat) : Bool :=
  match d.fieldList[k]? with
  | some f =>
    match f.units with
    | .must v => decide (v ≠ read (position d.fieldList k) f.size)
    | _ => false
  | none => false

def advanceR (tbl : List Pgn) (read : Nat → Nat → Nat) (k : Nat) : Nat → Nat → Nat
  | 0, t => t
  | fuel + 1, t =>
    match tbl[t]? with
    | some d => if refusesR read d k then advanceR tbl read k fuel (t + 1) else t
    | none => t

def selR (tbl : List Pgn) (read : Nat → Nat → Nat) (i j : Nat) : Nat → Nat
  | 0 => i
  | k + 1 => advanceR tbl read k (j + 1 - selR tbl read i j k) (selR tbl read i j k)

/-- The places and widths of the constrained bits of definitions `i..j` are among `ps`, before field
`K`. -/
def placesB (tbl : List Pgn) (i j K : Nat) (ps : List (Nat × Nat)) : Bool :=
  tbl.zipIdx.all fun x => !(decide (i ≤ x.2) && decide (x.2 ≤ j)) ||
    x.1.fieldList.zipIdx.all fun e =>
      match e.1.units with
      | .must _ => ps.contains (position x.1.fieldList e.2, e.1.size) && decide (e.2 < K)
      | _ => true

theorem placesB_spec {i j K : Nat} {ps : List (Nat × Nat)} (h : placesB tbl i j K ps = true)
    {t : Nat} {d : Pgn} (h1 : i ≤ t) (h2 : t ≤ j) (hd : tbl[t]? = some d) {k : Nat} {f : Field} {v : Nat}
    (hf : d.fieldList[k]? = some f) (hu : f.units = .must v) :
    (position d.fieldList k, f.size) ∈ ps ∧ k < K := by
  have h := List.all_eq_true.mp h (d, t) (List.mem_zipIdx_iff_getElem?.mpr hd)
  simp only [Bool.or_eq_true, Bool.not_eq_true', Bool.and_eq_false_iff, decide_eq_false_iff_not] at h
  rcases h with h | h
  · omega
  · have h := List.all_eq_true.mp h (f, k) (List.mem_zipIdx_iff_getElem?.mpr hf)
    simp only [hu, Bool.and_eq_true, decide_eq_true_eq, List.contains_iff_mem] at h
    exact h

theorem refusesR_eq {i j K : Nat} {ps : List (Nat × Nat)} (h : placesB tbl i j K ps = true)
    {data : List Byte} {read : Nat → Nat → Nat} (hr : ∀ x ∈ ps, read x.1 x.2 = bitsAt data x.1 x.2)
    {t : Nat} {d : Pgn} (h1 : i ≤ t) (h2 : t ≤ j) (hd : tbl[t]? = some d) (k : Nat) :
    refusesR read d k = refuses data d k := by
  unfold refusesR refuses
  cases hf : d.fieldList[k]? with
  | none => rfl
  | some f =>
    simp only
    cases hu : f.units with
    | must v =>
      simp only
      rw [hr _ (placesB_spec h h1 h2 hd hf hu).1]
    | _ => rfl

theorem advanceR_eq {data : List Byte} {read : Nat → Nat → Nat} {k : Nat} : ∀ fuel t,
    (∀ x d, t ≤ x → x < t + fuel → tbl[x]? = some d → refusesR read d k = refuses data d k) →
    advanceR tbl read k fuel t = advance tbl data k fuel t := by
  intro fuel
  induction fuel with
  | zero => intro t _; rfl
  | succ fuel ih =>
    intro t h
    unfold advanceR advance
    cases hd : tbl[t]? with
    | none => rfl
    | some d =>
      simp only
      rw [h t d (Nat.le_refl _) (by omega) hd,
        ih (t + 1) (fun x e h1 h2 => h x e (by omega) (by omega))]

theorem selR_eq {i K : Nat} {ps : List (Nat × Nat)} (hij : i ≤ j) (h : placesB tbl i j K ps = true)
    {data : List Byte} {read : Nat → Nat → Nat} (hr : ∀ x ∈ ps, read x.1 x.2 = bitsAt data x.1 x.2)
    (n : Nat) : selR tbl read i j n = sel tbl data i j n := by
  induction n with
  | zero => rfl
  | succ n ih =>
    unfold selR sel
    rw [ih]
    obtain ⟨b1, b2⟩ := sel_bounds (tbl := tbl) (data := data) hij n
    exact advanceR_eq _ _ (fun x d h1 h2 hd => refusesR_eq h hr (by omega) (by omega) hd n)

theorem sel_stable {data : List Byte} {i K : Nat} {ps : List (Nat × Nat)} (hij : i ≤ j)
    (hj : j < tbl.length) (h : placesB tbl i j K ps = true) (n : Nat) :
    sel tbl data i j (K + n) = sel tbl data i j K := by
  obtain ⟨b1, b2⟩ := sel_bounds (tbl := tbl) (data := data) hij K
  by_cases e : sel tbl data i j K = j + 1
  · rw [sel_stuck e, e]
  · have hd := List.getElem?_eq_getElem (show sel tbl data i j K < tbl.length by omega)
    refine sel_final hd (not_mustFrom ?_) n
    rintro ⟨k', f, v, h1, h2, h3⟩
    have := (placesB_spec h b1 (by omega) hd h2 h3).2
    omega

/-- The index of a message of a multi-definition PGN, computed from the constrained bits. -/
theorem index_computed {i K L : Nat} {ps : List (Nat × Nat)} (hdef : definitions Table.pgnList m.pgn i j)
    (hij : i < j) (hp : placesB Table.pgnList i j K ps = true) (hL : reachB Table.pgnList i j L = true)
    (hlen : L ≤ m.data.vis.length) {read : Nat → Nat → Nat}
    (hr : ∀ x ∈ ps, read x.1 x.2 = bitsAt m.data.vis x.1 x.2)
    {p : Parsed} (h : ParsePacket Table.pgnList env m (.ok p)) :
    p.index = selR Table.pgnList read i j K := by
  obtain ⟨d, q, hf, hl, hd, hq⟩ := first_last_of_definitions hdef
  obtain ⟨N, hN⟩ := index_eq_sel hf hl hij hd (table_selDefs hdef hij (reachB_spec hL hlen)) h
  rw [selR_eq (by omega) hp hr, hN (K + N) (by omega), sel_stable (by omega) hdef.2.1 hp]

def read3 (a b c : Nat) (p n : Nat) : Nat :=
  if p = 0 ∧ n = 11 then a else if (p = 16 ∨ p = 24) ∧ n = 8 then b else c

/-- C47 is false for messages of a PGN none of whose definitions match: 65285 of a manufacturer other
than 135 and 140 is decoded as PGN 65286. -/
theorem C47_false_unmatched (hp : m.pgn = 65285) (hlen : 2 ≤ m.data.vis.length)
    (h1 : bitsAt m.data.vis 0 11 ≠ 135) (h2 : bitsAt m.data.vis 0 11 ≠ 140) {p : Parsed}
    (h : ParsePacket Table.pgnList env m (.ok p)) :
    p.index = 39 ∧ (Table.pgnList[39]?.map (·.pgn)) = some 65286 := by
  have hdef : definitions Table.pgnList m.pgn 37 38 := by rw [hp]; exact definitionsB_spec (by decide +kernel)
  have hd0 : Table.pgnList[37]? = some Table.p37 := by decide +kernel
  have hd1 : Table.pgnList[38]? = some Table.p38 := by decide +kernel
  have u0 : Table.p37.fieldList[0]?.map (fun f => (f.units, f.size)) = some (.must 135, 11) := by decide +kernel
  have u1 : Table.p38.fieldList[0]?.map (fun f => (f.units, f.size)) = some (.must 140, 11) := by decide +kernel
  refine ⟨?_, by decide +kernel⟩
  rcases C47_partial hdef (by omega) (by omega) (by omega)
    (reachB_spec (n := 2) (by decide +kernel) hlen) h with ⟨a, b, ⟨d, hd, _, hs⟩, _⟩ | ⟨a, _⟩
  · exfalso
    have hs := hs 0
    have : p.index = 37 ∨ p.index = 38 := by omega
    rcases this with e | e
    · rw [e, hd0] at hd; injection hd with hd; subst hd
      cases hf : Table.p37.fieldList[0]? with
      | none => rw [hf] at u0; cases u0
      | some f =>
        rw [hf] at u0
        simp only [Option.map_some, Option.some.injEq, Prod.mk.injEq] at u0
        unfold refuses at hs
        rw [hf] at hs
        simp only [u0.1, u0.2, decide_eq_false_iff_not, ne_eq, not_not] at hs
        exact h1 hs.symm
    · rw [e, hd1] at hd; injection hd with hd; subst hd
      cases hf : Table.p38.fieldList[0]? with
      | none => rw [hf] at u1; cases u1
      | some f =>
        rw [hf] at u1
        simp only [Option.map_some, Option.some.injEq, Prod.mk.injEq] at u1
        unfold refuses at hs
        rw [hf] at hs
        simp only [u1.1, u1.2, decide_eq_false_iff_not, ne_eq, not_not] at hs
        exact h2 hs.symm
  · exact a

/-- C47 is false for 130820: a message of manufacturer 419 with message id 20 and a source other than
59, 12 and 13 is decoded with definition 219, which requires id 23, although definition 236 matches. -/
theorem C47_false_130820 (hp : m.pgn = 130820) (hlen : 5 ≤ m.data.vis.length)
    (h1 : bitsAt m.data.vis 0 11 = 419) (h2 : bitsAt m.data.vis 16 8 = 20)
    (h3 : bitsAt m.data.vis 32 8 ≠ 59) (h4 : bitsAt m.data.vis 32 8 ≠ 12)
    (h5 : bitsAt m.data.vis 32 8 ≠ 13) {p : Parsed}
    (h : ParsePacket Table.pgnList env m (.ok p)) :
    p.index = 219 ∧ ¬ satisfied m.data.vis Table.p219 ∧ satisfied m.data.vis Table.p236 := by
  have hdef : definitions Table.pgnList m.pgn 202 238 := by
    rw [hp]; exact definitionsB_spec (by decide +kernel)
  have hpl : placesB Table.pgnList 202 238 6 [(0, 11), (16, 8), (32, 8)] = true := by decide +kernel
  have hrd : ∀ x ∈ [(0, 11), (16, 8), (32, 8)],
      read3 419 20 (bitsAt m.data.vis 32 8) x.1 x.2 = bitsAt m.data.vis x.1 x.2 := by
    intro x hx
    simp only [List.mem_cons, List.not_mem_nil, or_false] at hx
    rcases hx with rfl | rfl | rfl
    · simp [read3, h1]
    · simp [read3, h2]
    · simp [read3]
  have hi := index_computed hdef (by omega) hpl (L := 5) (by decide +kernel) hlen hrd h
  refine ⟨?_, ?_, ?_⟩
  · rw [hi]
    have hlt := bitsAt_lt m.data.vis 32 8
    have key : ∀ c, c < 256 → c ≠ 59 → c ≠ 12 → c ≠ 13 →
        selR Table.pgnList (read3 419 20 c) 202 238 6 = 219 := by decide +kernel
    exact key _ hlt h3 h4 h5
  · intro hs
    have hs := hs 3
    rw [← refusesR_eq hpl hrd (t := 219) (by omega) (by omega) (by decide +kernel)] at hs
    have : ∀ c, c < 256 → refusesR (read3 419 20 c) Table.p219 3 = true := by decide +kernel
    rw [this _ (bitsAt_lt m.data.vis 32 8)] at hs; cases hs
  · intro k
    rw [← refusesR_eq hpl hrd (t := 236) (by omega) (by omega) (by decide +kernel)]
    rcases Nat.lt_or_ge k 6 with hk | hk
    · have : ∀ c, c < 256 → ∀ k, k < 6 → refusesR (read3 419 20 c) Table.p236 k = false := by
        decide +kernel
      exact this _ (bitsAt_lt m.data.vis 32 8) k hk
    · unfold refusesR
      rw [List.getElem?_eq_none (by have : Table.p236.fieldList.length ≤ 6 := by decide +kernel
                                    omega)]

/-- C47 is false for 130816: the Fusion message id 50 of manufacturer 1857 is decoded with definition
197, which requires manufacturer 275, although definition 198 matches. -/
theorem C47_false_130816 (hp : m.pgn = 130816) (hlen : 4 ≤ m.data.vis.length)
    (h1 : bitsAt m.data.vis 0 11 = 1857) (h2 : bitsAt m.data.vis 24 8 = 50) {p : Parsed}
    (h : ParsePacket Table.pgnList env m (.ok p)) :
    p.index = 197 ∧ ¬ satisfied m.data.vis Table.p197 ∧ satisfied m.data.vis Table.p198 := by
  have hdef : definitions Table.pgnList m.pgn 180 198 := by
    rw [hp]; exact definitionsB_spec (by decide +kernel)
  have hpl : placesB Table.pgnList 180 198 5 [(0, 11), (24, 8), (13, 3)] = true := by decide +kernel
  have hrd : ∀ x ∈ [(0, 11), (24, 8), (13, 3)],
      read3 1857 50 (bitsAt m.data.vis 13 3) x.1 x.2 = bitsAt m.data.vis x.1 x.2 := by
    intro x hx
    simp only [List.mem_cons, List.not_mem_nil, or_false] at hx
    rcases hx with rfl | rfl | rfl
    · simp [read3, h1]
    · simp [read3, h2]
    · simp [read3]
  have hi := index_computed hdef (by omega) hpl (L := 4) (by decide +kernel) hlen hrd h
  have hlt := bitsAt_lt m.data.vis 13 3
  refine ⟨?_, ?_, ?_⟩
  · rw [hi]
    have key : ∀ c, c < 2 ^ 3 → selR Table.pgnList (read3 1857 50 c) 180 198 5 = 197 := by decide +kernel
    exact key _ hlt
  rotate_left
  · intro k
    rw [← refusesR_eq hpl hrd (t := 198) (by omega) (by omega) (by decide +kernel)]
    rcases Nat.lt_or_ge k 11 with hk | hk
    · have : ∀ c, c < 2 ^ 3 → ∀ k, k < 11 → refusesR (read3 1857 50 c) Table.p198 k = false := by
        decide +kernel
      exact this _ hlt k hk
    · unfold refusesR
      rw [List.getElem?_eq_none (by have : Table.p198.fieldList.length ≤ 11 := by decide +kernel
                                    omega)]
  · intro hs
    have hs := hs 0
    rw [← refusesR_eq hpl hrd (t := 197) (by omega) (by omega) (by decide +kernel)] at hs
    have : ∀ c, c < 2 ^ 3 → refusesR (read3 1857 50 c) Table.p197 0 = true := by decide +kernel
    rw [this _ hlt] at hs; cases hs

/-- PGN 126720 always yields its first definition, which has no constraints: the eleven others are
never used. -/
theorem C47_126720 (hp : m.pgn = 126720) {p : Parsed}
    (h : ParsePacket Table.pgnList env m (.ok p)) (hlen : 3 ≤ m.data.vis.length) : p.index = 58 := by
  have hdef : definitions Table.pgnList m.pgn 58 69 := by
    rw [hp]; exact definitionsB_spec (by decide +kernel)
  have hpl : placesB Table.pgnList 58 69 4 [(0, 11), (16, 8)] = true := by decide +kernel
  have hi := index_computed hdef (by omega) hpl (L := 3) (by decide +kernel) hlen
    (read := bitsAt m.data.vis) (fun _ _ => rfl) h
  rw [hi]
  have hd : Table.pgnList[58]? = some Table.p58 := by decide +kernel
  have hns : ¬ mustFrom Table.p58 0 := by
    rintro ⟨k, f, v, _, hf, hu⟩
    have : Table.p58.fieldList.all (fun f => match f.units with | .must _ => false | _ => true) = true := by
      decide +kernel
    have := List.all_eq_true.mp this f (List.mem_of_getElem? hf)
    rw [hu] at this; cases this
  rw [selR_eq (by omega) hpl (data := m.data.vis) (fun _ _ => rfl)]
  have := sel_final (tbl := Table.pgnList) (data := m.data.vis) (i := 58) (j := 69) (k := 0) hd
    (not_mustFrom hns) 4
  simpa [sel] using this

/-- The hypotheses of `C47_partial` are met by PGN 130845 with a message of ten bytes. -/
example : definitions Table.pgnList 130845 257 260 ∧
    (∀ t d, 257 ≤ t → t ≤ 260 → Table.pgnList[t]? = some d →
      reachesConstraints [0x41, 7, 0, 0, 0, 0, 0, 37, 0, 1] d) ∧
    ((parsePacketN Table.pgnList ⟨fun _ _ => "", fun _ => "", fun _ _ _ => ""⟩
      ⟨0, 130845, 0, 0, 0, ⟨[0x41, 7, 0, 0, 0, 0, 0, 37, 0, 1], []⟩⟩ 100).map (fun r => match r with
        | .ok p => p.index | .error _ => 0)) = some 258 :=
  ⟨definitionsB_spec (by decide +kernel), reachB_spec (n := 10) (by decide +kernel) (by decide),
    by decide +kernel⟩

example : ((parsePacketN Table.pgnList ⟨fun _ _ => "", fun _ => "", fun _ _ _ => ""⟩
      ⟨0, 130820, 0, 0, 0, ⟨[0xA3, 1, 20, 0, 7, 1, 2, 3], []⟩⟩ 100).map (fun r => match r with
        | .ok p => p.index | .error _ => 0)) = some 219 := by decide +kernel

example : ((parsePacketN Table.pgnList ⟨fun _ _ => "", fun _ => "", fun _ _ _ => ""⟩
      ⟨0, 130816, 0, 0, 0, ⟨[0x41, 7, 20, 50, 7, 1, 2, 3, 4, 5, 6], []⟩⟩ 100).map (fun r => match r with
        | .ok p => p.index | .error _ => 0)) = some 197 := by decide +kernel

end Argo.Nmea2k
