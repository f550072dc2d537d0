import Verif.Nmea2k.Safe2

set_option autoImplicit false

/-! # C47: which definition ParsePacket selects -/

namespace Argo.Nmea2k

open Argo Argo.Nmea2k.Spec

namespace Spec

/-- The '=' constraint of definition `d` on its field `k`, if there is one, fails on the message:
the bits at the field's static position are not the required value. -/
def refuses (data : List Byte) (d : Pgn) (k : Nat) : Bool :=
  match d.fieldList[k]? with
  | some f =>
    match f.units with
    | .must v => decide (v ≠ bitsAt data (position d.fieldList k) f.size)
    | _ => false
  | none => false

/-- Every '=' constraint of the definition holds on the message. -/
def satisfied (data : List Byte) (d : Pgn) : Prop := ∀ k, refuses data d k = false

/-- The message reaches the end of every field of `d` that has an '=' constraint. -/
def reachesConstraints (data : List Byte) (d : Pgn) : Prop :=
  ∀ k f v, d.fieldList[k]? = some f → f.units = .must v →
    position d.fieldList (k + 1) ≤ 8 * data.length

/-- Entries `i..j` are the definitions of PGN `id`. -/
def definitions (tbl : List Pgn) (id i j : Nat) : Prop :=
  i ≤ j ∧ j < tbl.length ∧ ∀ t d, tbl[t]? = some d → (d.pgn = id ↔ i ≤ t ∧ t ≤ j)

end Spec

variable {tbl : List Pgn} {env : Env} {m : RawMessage} {j : Nat}

/-- From entry `t` on, the first of at most `fuel` entries that does not refuse at field `k`. -/
def advance (tbl : List Pgn) (data : List Byte) (k : Nat) : Nat → Nat → Nat
  | 0, t => t
  | fuel + 1, t =>
    match tbl[t]? with
    | some d => if refuses data d k then advance tbl data k fuel (t + 1) else t
    | none => t

/-- The entry reached after the constraints on fields `0..k-1` were looked at one after another. -/
def sel (tbl : List Pgn) (data : List Byte) (i j : Nat) : Nat → Nat
  | 0 => i
  | k + 1 => advance tbl data k (j + 1 - sel tbl data i j k) (sel tbl data i j k)

theorem advance_bounds (data : List Byte) (k : Nat) : ∀ fuel t,
    t ≤ advance tbl data k fuel t ∧ advance tbl data k fuel t ≤ t + fuel ∧
    (∀ x d, t ≤ x → x < advance tbl data k fuel t → tbl[x]? = some d → refuses data d k = true) ∧
    (∀ d, advance tbl data k fuel t < t + fuel → tbl[advance tbl data k fuel t]? = some d →
      refuses data d k = false) := by
  intro fuel
  induction fuel with
  | zero =>
    intro t
    refine ⟨Nat.le_refl _, Nat.le_refl _, fun x d h1 h2 => ?_, fun d h => ?_⟩
    · simp only [advance] at h2; omega
    · simp only [advance] at h; omega
  | succ fuel ih =>
    intro t
    unfold advance
    cases hd : tbl[t]? with
    | none =>
      simp only
      refine ⟨Nat.le_refl _, by omega, fun x d h1 h2 => by omega, fun d _ h => ?_⟩
      simp only [hd] at h; cases h
    | some d =>
      simp only
      by_cases hr : refuses data d k = true
      · rw [if_pos hr]
        obtain ⟨h1, h2, h3, h4⟩ := ih (t + 1)
        refine ⟨by omega, by omega, fun x e hx1 hx2 he => ?_, fun e he => h4 e (by omega)⟩
        by_cases hx : x = t
        · subst hx; rw [hd] at he; injection he with he; subst he; exact hr
        · exact h3 x e (by omega) hx2 he
      · rw [if_neg hr]
        refine ⟨Nat.le_refl _, by omega, fun x d h1 h2 => by omega, fun e _ he => ?_⟩
        rw [hd] at he; injection he with he; subst he
        simpa using hr

theorem advance_stay {data : List Byte} {k fuel t : Nat} {d : Pgn} (hd : tbl[t]? = some d)
    (h : refuses data d k = false) : advance tbl data k fuel t = t := by
  cases fuel with
  | zero => rfl
  | succ fuel => unfold advance; rw [hd]; simp only [h]; rfl

/-- Once past the last definition, or at a definition with no constraint from field `k` on, nothing
changes. -/
theorem sel_stuck {data : List Byte} {i k : Nat} (h : sel tbl data i j k = j + 1) (n : Nat) :
    sel tbl data i j (k + n) = j + 1 := by
  induction n with
  | zero => exact h
  | succ n ih =>
    show sel tbl data i j (k + n + 1) = j + 1
    unfold sel; rw [ih, Nat.sub_self]; rfl

theorem sel_final {data : List Byte} {i k : Nat} {d : Pgn} (hd : tbl[sel tbl data i j k]? = some d)
    (h : ∀ k', k ≤ k' → refuses data d k' = false) (n : Nat) :
    sel tbl data i j (k + n) = sel tbl data i j k := by
  induction n with
  | zero => rfl
  | succ n ih =>
    have e : sel tbl data i j (k + n + 1) =
      advance tbl data (k + n) (j + 1 - sel tbl data i j (k + n)) (sel tbl data i j (k + n)) := rfl
    show sel tbl data i j (k + n + 1) = _
    rw [e, ih]
    exact advance_stay hd (h (k + n) (by omega))

/-- Every '=' field of `d` is an unsigned raw number of at most 64 bits that does not straddle, and
lies at the same bits in `d'`, if it exists there. -/
def sameField (d d' : Pgn) : Bool :=
  d.fieldList.zipIdx.all fun e =>
    match e.1.units with
    | .must _ => decide (position d.fieldList e.2 = position d'.fieldList e.2) &&
        decide (position d.fieldList (e.2 + 1) = position d'.fieldList (e.2 + 1))
    | _ => true

theorem sameField_spec {d d' : Pgn} (h : sameField d d' = true) {k : Nat} {f : Field} {v : Nat}
    (hf : d.fieldList[k]? = some f) (hu : f.units = .must v) :
    position d.fieldList k = position d'.fieldList k ∧
    position d.fieldList (k + 1) = position d'.fieldList (k + 1) := by
  have := List.all_eq_true.mp h (f, k) (List.mem_zipIdx_iff_getElem?.mpr hf)
  simpa [hu] using this

def mustOK (d : Pgn) : Bool :=
  d.fieldList.zipIdx.all fun e =>
    match e.1.units with
    | .must _ => e.1.res.isRaw && !e.1.signed && decide (e.1.size ≤ 64) &&
        !straddles (position d.fieldList e.2) e.1.size
    | _ => true

theorem mustOK_spec {d : Pgn} (h : mustOK d = true) {k : Nat} {f : Field} {v : Nat}
    (hf : d.fieldList[k]? = some f) (hu : f.units = .must v) :
    f.res.isRaw = true ∧ f.signed = false ∧ f.size ≤ 64 ∧
      straddles (position d.fieldList k) f.size = false := by
  have := List.all_eq_true.mp h (f, k) (List.mem_zipIdx_iff_getElem?.mpr hf)
  simp only [hu, Bool.and_eq_true, decide_eq_true_eq, Bool.not_eq_true'] at this
  tauto

/-- The number a constraint is compared with. -/
theorem extractNumber_must {f g : Field} {pos : Nat} (hr : g.res.isRaw = true) (hs : g.signed = false)
    (h64 : f.size ≤ 64) (hst : straddles pos f.size = false)
    (hc : pos / 8 + byteCount f.size ≤ m.data.vis.length) :
    extractNumber m g (pos / 8) (byteCount f.size + pos / 8) (pos % 8) f.size =
      .ok (some (.u64 (bitsAt m.data.vis pos f.size))) := by
  have hbc : byteCount f.size = (f.size + 7) / 8 := rfl
  have hrd : readable pos f.size = min f.size (8 * byteCount f.size - pos % 8) := rfl
  rw [extractNumber_eq m g (by omega) (by omega) (by omega)]
  rw [if_neg (by omega), numberValue_raw hr hs]
  have e2 : 8 * (pos / 8) + pos % 8 = pos := by omega
  have e1 : byteCount f.size + pos / 8 - pos / 8 = byteCount f.size := by omega
  rw [e1, e2, ← hrd, readable_full hst]

theorem variantLoop_sel {res : Res} {k pos size : Nat}
    {f0 : Field} (hsz : f0.size = size) (h64 : size ≤ 64) (hst : straddles pos size = false)
    (hc : pos / 8 + byteCount size ≤ m.data.vis.length) :
    ∀ {fuel i : Nat} {d : Pgn} {field : Field} {data : Val} {i' : Nat} {d' : Pgn},
      (∀ t d, i ≤ t → t < i + fuel → tbl[t]? = some d → mustOK d = true ∧
        ∀ d', t + 1 < i + fuel → tbl[t + 1]? = some d' → sameField d d' = true) →
      tbl[i]? = some d → d.fieldList[k]? = some field →
      position d.fieldList k = pos → field.size = size →
      (res = .manufacturer ∨ data = .u64 (bitsAt m.data.vis pos size)) →
      variantLoop tbl m res (k : Int) (pos / 8) (byteCount size + pos / 8) (pos % 8) size fuel i d
        field data = .ok (i', d') →
      i' = advance tbl m.data.vis k fuel i := by
  intro fuel
  induction fuel with
  | zero =>
    intro i d field data i' d' _ _ _ _ _ _ h
    simp only [variantLoop] at h
    injection h with h; injection h with h1 h2
    exact h1.symm
  | succ fuel ih =>
    intro i d field data i' d' hok hd hf hp hs hdata h
    unfold variantLoop at h
    obtain ⟨hmk, hnext⟩ := hok i d (Nat.le_refl _) (by omega) hd
    have hstay : (∀ v, field.units ≠ .must v) → advance tbl m.data.vis k (fuel + 1) i = i := by
      intro hnm
      refine advance_stay hd ?_
      cases hr : refuses m.data.vis d k with
      | false => rfl
      | true =>
        unfold refuses at hr
        rw [hf] at hr
        simp only at hr
        cases hr
    cases hu : field.units with
    | must v =>
      obtain ⟨r1, r2, r3, r4⟩ := mustOK_spec hmk hf hu
      have hvd : variantData m res field (pos / 8) (byteCount size + pos / 8) (pos % 8) size data =
          .ok (.u64 (bitsAt m.data.vis pos size)) := by
        unfold variantData
        by_cases hres : res = .manufacturer
        · rw [if_pos hres]
          have := extractNumber_must (m := m) (f := f0) (g := field) r1 r2 (by omega)
            (by rw [hsz]; exact hst) (by rw [hsz]; exact hc)
          rw [hsz] at this
          rw [this]; rfl
        · rw [if_neg hres, hdata.resolve_left hres]
      rw [hvd, hu] at h
      simp only [bind, Except.bind] at h
      by_cases hv : v = bitsAt m.data.vis pos size
      · rw [if_pos hv] at h
        simp only [pure, Except.pure] at h
        injection h with h; injection h with h1 h2
        rw [← h1]; symm
        refine advance_stay hd ?_
        unfold refuses; rw [hf]; simp only [hu, hp, hs, hv]; simp
      · rw [if_neg hv] at h
        split at h
        · cases h
        · rename_i e he
          split at h
          · cases h
          · rename_i g hg
            have he := (goIndex_ok he).2
            have hg := (goIndex_ok hg).2
            rw [show ((i : Int) + 1).toNat = i + 1 by omega] at he
            rw [Int.toNat_natCast] at hg
            have hadv : advance tbl m.data.vis k (fuel + 1) i = advance tbl m.data.vis k fuel (i + 1) := by
              conv => lhs; unfold advance
              rw [hd]; simp only
              rw [if_pos]
              unfold refuses; rw [hf]; simp only [hu, hp, hs]; simpa using hv
            rw [hadv]
            cases fuel with
            | zero =>
              simp only [variantLoop] at h
              injection h with h; injection h with h1 h2
              exact h1.symm
            | succ fuel =>
              obtain ⟨sf1, sf2⟩ := sameField_spec (hnext e (by omega) he) hf hu
              refine ih (fun t d h1 h2 h3 => ?_) he hg (by omega) ?_ (Or.inr rfl) h
              · obtain ⟨x1, x2⟩ := hok t d (by omega) (by omega) h3
                exact ⟨x1, fun d' h4 => x2 d' (by omega)⟩
              · have p1 := position_succ d.fieldList k
                have p2 := position_succ e.fieldList k
                rw [hf] at p1; rw [hg] at p2
                simp only [Option.map_some, Option.getD_some] at p1 p2
                omega
    | empty =>
      rw [hstay (by rw [hu]; intro v hv; cases hv)]
      simp only [hu, bind, Except.bind] at h
      split at h <;> cases h
    | nil =>
      rw [hstay (by rw [hu]; intro v hv; cases hv)]
      simp only [hu, bind, Except.bind, pure, Except.pure] at h
      split at h
      · cases h
      · injection h with h; injection h with h1 h2; exact h1.symm
    | _ =>
      rw [hstay (by rw [hu]; intro v hv; cases hv)]
      simp only [hu, bind, Except.bind, pure, Except.pure] at h
      split at h
      · cases h
      · injection h with h; injection h with h1 h2; exact h1.symm

/-- What is required of the definitions `i..j`. -/
structure SelDefs (tbl : List Pgn) (data : List Byte) (i j : Nat) : Prop where
  good : ∀ d ∈ tbl, noMustInGroup d = true
  ok : ∀ t d, i ≤ t → t ≤ j → tbl[t]? = some d → mustOK d = true ∧
    ∀ d', t + 1 ≤ j → tbl[t + 1]? = some d' → sameField d d' = true
  reach : ∀ t d, i ≤ t → t ≤ j → tbl[t]? = some d → reachesConstraints data d

/-- A field with an '=' constraint at or after `k`. -/
def mustFrom (d : Pgn) (k : Nat) : Prop := ∃ k' f v, k ≤ k' ∧ d.fieldList[k']? = some f ∧ f.units = .must v

theorem refuses_must {data : List Byte} {d : Pgn} {k : Nat} (h : refuses data d k = true) :
    ∃ f v, d.fieldList[k]? = some f ∧ f.units = .must v := by
  unfold refuses at h
  split at h
  · rename_i f hf
    split at h
    · rename_i v hv; exact ⟨f, v, hf, hv⟩
    · cases h
  · cases h

theorem not_mustFrom {data : List Byte} {d : Pgn} {k : Nat} (h : ¬ mustFrom d k) :
    ∀ k', k ≤ k' → refuses data d k' = false := by
  intro k' hk
  cases hr : refuses data d k' with
  | false => rfl
  | true => obtain ⟨f, v, h1, h2⟩ := refuses_must hr; exact absurd ⟨k', f, v, hk, h1, h2⟩ h

/-- Progress of the search: still reading constrained fields of the definitions `i..j`, or settled. -/
def SelInv (tbl : List Pgn) (m : RawMessage) (i j : Nat) (s : St) : Prop :=
  AnyInv tbl s ∧ s.bit < 8 ∧
  ((s.idx = s.odx ∧ s.i = sel tbl m.data.vis i j s.odx ∧ i ≤ s.i ∧ s.i ≤ j ∧
      8 * s.sb + s.bit = position s.d.fieldList s.odx ∧ mustFrom s.d s.odx) ∨
   ((∀ n, s.odx ≤ n → sel tbl m.data.vis i j n = s.i) ∧ (s.i = j + 1 ∨ ¬ mustFrom s.d s.odx)))

theorem mustFrom_lt {d : Pgn} {k : Nat} (h : mustFrom d k) : k < d.fieldList.length := by
  obtain ⟨k', f, v, hk, hf, _⟩ := h
  rcases Nat.lt_or_ge k d.fieldList.length with h | h
  · exact h
  · rw [List.getElem?_eq_none (by omega)] at hf; cases hf

theorem mustFrom_covers {data : List Byte} {d : Pgn} {k : Nat} {f : Field} (h : mustFrom d k)
    (hr : reachesConstraints data d) (hf : d.fieldList[k]? = some f) :
    position d.fieldList k / 8 + byteCount f.size ≤ data.length := by
  obtain ⟨k', f', v, hk, hf', hu⟩ := h
  have h1 := hr k' f' v hf' hu
  have h2 := position_mono d.fieldList (show k + 1 ≤ k' + 1 by omega)
  rw [position_succ, hf] at h2
  simp only [Option.map_some, Option.getD_some] at h2
  unfold byteCount; omega

theorem selInv_settle {i : Nat} {s : St} (hany : AnyInv tbl s) (hb : s.bit < 8)
    (h1 : s.i = sel tbl m.data.vis i j s.odx)
    (h : s.i = j + 1 ∨ ¬ mustFrom s.d s.odx) : SelInv tbl m i j s := by
  refine ⟨hany, hb, Or.inr ⟨fun n hn => ?_, h⟩⟩
  obtain ⟨c, rfl⟩ := Nat.exists_eq_add_of_le hn
  rcases h with h | h
  · rw [h]; exact sel_stuck (by rw [← h1]; exact h) c
  · rw [sel_final (d := s.d) (by rw [← h1]; exact hany.def_) (not_mustFrom h), ← h1]

theorem selInv_step {i : Nat} (hS : SelDefs tbl m.data.vis i j) {s s' : St}
    (h : SelInv tbl m i j s) (hs : step tbl env m j false s = .ok (.inl s')) : SelInv tbl m i j s' := by
  obtain ⟨hany, hb, h⟩ := h
  have hany' := anyInv_step hS.good hany hs
  obtain ⟨field, r, i', d', index', hidx, hf, hsb, hw, hr, hv, rfl⟩ := step_inl hs
  obtain ⟨v1, v2, v3, v4, _, v6⟩ := selectVariant_bounds hv
  have hfo := goIndex_ok hf
  have hb' : (s.bit + winBits m.data.vis.length field) % 8 < 8 := by omega
  rcases h with ⟨hix, hsel, hlo, hhi, hpos, hmf⟩ | ⟨hfin, hset⟩
  · -- still searching
    have hk : s.idx.toNat = s.odx := by omega
    rw [hk] at hfo
    have hcov := mustFrom_covers hmf (hS.reach s.i s.d hlo hhi hany.def_) hfo.2
    have hsb' : s.sb = position s.d.fieldList s.odx / 8 := by omega
    have hbit' : s.bit = position s.d.fieldList s.odx % 8 := by omega
    obtain ⟨w1, w2⟩ := winBytes_full (len := m.data.vis.length) (f := field) (by omega)
    obtain ⟨hmk, _⟩ := hS.ok s.i s.d hlo hhi hany.def_
    have hi' : i' = sel tbl m.data.vis i j (s.odx + 1) := by
      have e : sel tbl m.data.vis i j (s.odx + 1) = advance tbl m.data.vis s.odx (j + 1 - s.i) s.i := by
        rw [hsel]; rfl
      rw [e]
      by_cases hm : ∃ v, field.units = .must v
      · obtain ⟨v, hm⟩ := hm
        obtain ⟨r1, r2, r3, r4⟩ := mustOK_spec hmk hfo.2 hm
        have hnum := extractNumber_must (m := m) (f := field) (g := field) r1 r2 r3 r4 hcov
        have hdec : ∃ x, r = some x ∧ (field.res = .manufacturer ∨ x = .u64 (bitsAt m.data.vis
            (position s.d.fieldList s.odx) field.size)) := by
          rw [w1, w2, hsb', hbit'] at hr
          unfold decodeField at hr
          cases hres : field.res with
          | integer =>
            simp only [hres] at hr; rw [hnum] at hr; injection hr with hr
            exact ⟨_, hr.symm, Or.inr rfl⟩
          | one =>
            simp only [hres] at hr; rw [hnum] at hr; injection hr with hr
            exact ⟨_, hr.symm, Or.inr rfl⟩
          | lookup =>
            simp only [hres, extractLookupField, hnum, bind, Except.bind, hm, pure, Except.pure] at hr
            injection hr with hr
            exact ⟨_, hr.symm, Or.inr rfl⟩
          | manufacturer =>
            simp only [hres, extractManufacturer, hnum, bind, Except.bind, pure, Except.pure] at hr
            split at hr
            · injection hr with hr; exact ⟨_, hr.symm, Or.inl rfl⟩
            · injection hr with hr; exact ⟨_, hr.symm, Or.inl rfl⟩
          | _ => rw [hres] at r1; cases r1
        obtain ⟨x, rfl, hx⟩ := hdec
        unfold selectVariant at hv
        simp only [Bool.false_eq_true, if_false, bind, Except.bind] at hv
        split at hv
        · cases hv
        · rename_i t ht
          obtain ⟨i2, d2⟩ := t
          simp only [pure, Except.pure] at hv
          injection hv with hv; injection hv with e1 e2
          rw [← e1]
          rw [w1, w2, hsb', hbit', hix] at ht
          exact variantLoop_sel (f0 := field) rfl r3 r4 hcov
            (fun t d h1 h2 h3 => by
              obtain ⟨x1, x2⟩ := hS.ok t d (by omega) (by omega) h3
              exact ⟨x1, fun d' h4 => x2 d' (by omega)⟩) hany.def_ hfo.2 rfl rfl hx ht
      · have hm' : ∀ n, field.units ≠ .must n := fun n hn => hm ⟨n, hn⟩
        rw [(selectVariant_must hm' hv).1]
        symm
        refine advance_stay hany.def_ ?_
        cases hrf : refuses m.data.vis s.d s.odx with
        | false => rfl
        | true =>
          obtain ⟨f, v, h1, h2⟩ := refuses_must hrf
          rw [hfo.2] at h1; injection h1 with h1; subst h1
          exact absurd h2 (hm' v)
    by_cases hij : i' = j + 1
    · exact selInv_settle hany' hb' hi' (Or.inl hij)
    · by_cases hmf' : mustFrom d' (s.odx + 1)
      · have hlt := mustFrom_lt hmf'
        have hnx : nextIdx m.data.vis.length d' s.idx
            (s.sb + (winBits m.data.vis.length field + s.bit) / 8) = s.idx + 1 := by
          unfold nextIdx; rw [if_neg]; omega
        refine ⟨hany', hb', Or.inl ⟨?_, hi', ?_, ?_, ?_, hmf'⟩⟩
        · simp only [hnx]; omega
        · simp only; omega
        · simp only
          have : max s.i (j + 1) = j + 1 := by omega
          omega
        · simp only
          rw [w2]
          have hpe : position d'.fieldList (s.odx + 1) = position s.d.fieldList (s.odx + 1) := by
            by_cases e : i' = s.i
            · rw [v3 e]
            · by_cases hm : ∃ v, field.units = .must v
              · obtain ⟨v, hm⟩ := hm
                -- the end position is preserved along the chain of refusing definitions
                have hchain : ∀ t, s.i ≤ t → t ≤ i' → ∀ e, tbl[t]? = some e →
                    position e.fieldList (s.odx + 1) = position s.d.fieldList (s.odx + 1) := by
                  intro t ht
                  induction t, ht using Nat.le_induction with
                  | base =>
                    intro _ e he
                    rw [hany.def_] at he; injection he with he; rw [he]
                  | succ t ht ih =>
                    intro hti e he
                    have hlen : t < tbl.length := by
                      have : t + 1 < tbl.length := by
                        rcases Nat.lt_or_ge (t + 1) tbl.length with h | h
                        · exact h
                        · rw [List.getElem?_eq_none h] at he; cases he
                      omega
                    have hte := List.getElem?_eq_getElem hlen
                    have hp := ih (by omega) tbl[t] hte
                    have hrefuse : refuses m.data.vis tbl[t] s.odx = true := by
                      have hadv := (advance_bounds (tbl := tbl) m.data.vis s.odx (j + 1 - s.i) s.i).2.2.1
                      refine hadv t _ ht ?_ hte
                      have e : sel tbl m.data.vis i j (s.odx + 1) =
                        advance tbl m.data.vis s.odx (j + 1 - s.i) s.i := by rw [hsel]; rfl
                      rw [← e, ← hi']; omega
                    obtain ⟨f1, v1, hf1, hu1⟩ := refuses_must hrefuse
                    have hmx : max s.i (j + 1) = j + 1 := by omega
                    have hsf := (hS.ok t tbl[t] (by omega) (by omega) hte).2 e (by omega) he
                    rw [← (sameField_spec hsf hf1 hu1).2]; exact hp
                exact hchain i' v1 (Nat.le_refl _) d' (v4 e).1
              · exact absurd (selectVariant_must (fun n hn => hm ⟨n, hn⟩) hv).1 e
          rw [hpe, position_succ, hfo.2]
          simp only [Option.map_some, Option.getD_some]
          omega
      · exact selInv_settle hany' hb' hi' (Or.inr hmf')
  · -- settled
    have hi' : i' = s.i ∧ d' = s.d := by
      rcases hset with hset | hset
      · have hm : max s.i (j + 1) = s.i := by omega
        have e : i' = s.i := by omega
        exact ⟨e, v3 e⟩
      · refine selectVariant_must (fun v hu => ?_) hv
        rcases hany.track with ⟨t1, t2⟩ | ⟨t1, t2, t3⟩
        · exact hset ⟨s.idx.toNat, field, v, by omega, hfo.2, hu⟩
        · have hgs := hS.good s.d (List.mem_of_getElem? hany.def_)
          simp only [noMustInGroup, Bool.and_eq_true, decide_eq_true_eq] at hgs
          have hmem : field ∈ s.d.fieldList.drop (s.d.fieldList.length - s.d.repeatingFields) := by
            have : (s.d.fieldList.drop (s.d.fieldList.length - s.d.repeatingFields))[
                s.idx.toNat - (s.d.fieldList.length - s.d.repeatingFields)]? = some field := by
              rw [List.getElem?_drop]
              rw [show s.d.fieldList.length - s.d.repeatingFields +
                (s.idx.toNat - (s.d.fieldList.length - s.d.repeatingFields)) = s.idx.toNat by omega]
              exact hfo.2
            exact List.mem_of_getElem? this
          have := List.all_eq_true.mp hgs.2 field hmem
          rw [hu] at this
          cases this
    refine ⟨hany', hb', Or.inr ⟨fun n hn => ?_, ?_⟩⟩
    · simp only at hn ⊢
      rw [hi'.1]; exact hfin n (by omega)
    · simp only
      rw [hi'.1, hi'.2]
      rcases hset with hset | hset
      · exact Or.inl hset
      · refine Or.inr (fun hmf => hset ?_)
        obtain ⟨k', f, v, h1, h2⟩ := hmf
        exact ⟨k', f, v, by omega, h2⟩

/-- The index a message with several definitions ends with, in terms of the field-by-field search. -/
theorem index_eq_sel {i : Nat} {d q : Pgn} (hf : first tbl m.pgn = .ok (i, d))
    (hl : last tbl m.pgn = .ok (j, q)) (hij : i < j) (hd : tbl[i]? = some d)
    (hS : SelDefs tbl m.data.vis i j) {p : Parsed} (h : ParsePacket tbl env m (.ok p)) :
    ∃ N, ∀ n, N ≤ n → p.index = sel tbl m.data.vis i j n := by
  rw [ParsePacket_iff hf hl, show (i == j) = false by simpa using (by omega : i ≠ j)] at h
  obtain ⟨n, hn⟩ := h
  have hany : AnyInv tbl (initSt i d) := ⟨rfl, hd, Or.inl ⟨rfl, by simp [initSt]⟩, rfl⟩
  have h0 : SelInv tbl m i j (initSt i d) := by
    by_cases hm : mustFrom d 0
    · exact ⟨hany, by simp [initSt], Or.inl ⟨rfl, rfl, Nat.le_refl _, by simp only [initSt]; omega, rfl, hm⟩⟩
    · exact selInv_settle hany (by simp [initSt]) rfl (Or.inr hm)
  obtain ⟨s', ⟨hA, hb, hP⟩, hok, _⟩ := run_inv (SelInv tbl m i j)
    (fun s s' hs hst => selInv_step hS hs hst) h0 hn
  obtain ⟨he, hret⟩ := step_inr (hok p rfl)
  subst he
  simp only [hA.index_]
  rcases hP with ⟨hix, hsel, hlo, hhi, hpos, hmf⟩ | ⟨hfin, _⟩
  · exfalso
    have hlt := mustFrom_lt hmf
    rcases hret with hret | ⟨field, _, hfi, hret⟩
    · omega
    · have hfo := goIndex_ok hfi
      rw [show s'.idx.toNat = s'.odx by omega] at hfo
      have hcov := mustFrom_covers hmf (hS.reach s'.i s'.d hlo hhi hA.def_) hfo.2
      obtain ⟨w1, w2⟩ := winBytes_full (len := m.data.vis.length) (f := field) (by omega)
      rw [w1] at hret
      omega
  · exact ⟨s'.odx, fun n hn => (hfin n hn).symm⟩

end Argo.Nmea2k
