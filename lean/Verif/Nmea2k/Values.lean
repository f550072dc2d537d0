import Verif.Nmea2k.Crash
import Verif.Nmea2k.Names

set_option autoImplicit false

/-! # C117: the values of a message whose PGN has several definitions -/

namespace Argo.Nmea2k

open Argo Argo.Nmea2k.Spec

variable {tbl : List Pgn} {env : Env} {m : RawMessage} {j : Nat} {bad : Nat → Nat → Bool}

namespace Spec

/-- Every field of the definition that starts in the first byte of a message ends within it. -/
def startFits (data : List Byte) (d : Pgn) : Prop :=
  ∀ (k : Nat) (f : Field), d.fieldList[k]? = some f → position d.fieldList k < 8 →
    byteCount f.size ≤ data.length

/-- The entries are the fields of `d` in reading order, the repeating group over and over, each decoded at the sum of
the sizes of those before it (the values of the entries in `except_` are left open); they end after the last field, or where a repetition would start at the end of the
message, or where the next field does not fit. -/
def readAs (env : Env) (data : List Byte) (d : Pgn) (except_ : Nat → Prop) (values : DataMap) : Prop :=
  values.map Prod.fst = List.range values.length ∧
  (∀ k, k < values.length → ∃ f, entryOf d k = some f ∧
    entryPos d k / 8 + byteCount f.size ≤ data.length ∧
    (¬ except_ k → values.get k = (fieldValue env data f (entryPos d k)).getD .nil)) ∧
  ((d.repeatingFields = 0 ∧ values.length = d.fieldList.length) ∨
   (0 < d.repeatingFields ∧ d.fieldList.length ≤ values.length ∧
     data.length ≤ entryPos d values.length / 8) ∨
   (∃ f, entryOf d values.length = some f ∧
     data.length < entryPos d values.length / 8 + byteCount f.size))

end Spec

/-! ## Fields that are decoded alike -/

/-- The lookup table named by a field's units. -/
def lookupName : Units → Option String
  | .lookup s => some s
  | _ => none

/-- Two fields are decoded alike. -/
def alike (f g : Field) : Bool :=
  f.size == g.size && f.res == g.res && f.signed == g.signed &&
    (!(f.res == .lookup) || lookupName f.units == lookupName g.units)

theorem alike_spec {f g : Field} (h : alike f g = true) : f.size = g.size ∧ f.res = g.res ∧ f.signed = g.signed ∧
    (f.res = .lookup → lookupName f.units = lookupName g.units) := by
  unfold alike at h
  simp only [Bool.and_eq_true, beq_iff_eq, Bool.or_eq_true, Bool.not_eq_true'] at h
  refine ⟨h.1.1.1, h.1.1.2, h.1.2, fun hl => ?_⟩
  rcases h.2 with h2 | h2
  · rw [hl] at h2; simp at h2
  · exact h2

theorem alike_refl (f : Field) : alike f f = true := by unfold alike; simp

theorem alike_trans {f g e : Field} (h1 : alike f g = true) (h2 : alike g e = true) : alike f e = true := by
  obtain ⟨a1, a2, a3, a4⟩ := alike_spec h1
  obtain ⟨b1, b2, b3, b4⟩ := alike_spec h2
  unfold alike
  simp only [Bool.and_eq_true, beq_iff_eq, Bool.or_eq_true, Bool.not_eq_true']
  refine ⟨⟨⟨a1.trans b1, a2.trans b2⟩, a3.trans b3⟩, ?_⟩
  by_cases hl : f.res = .lookup
  · right; exact (a4 hl).trans (b4 (a2 ▸ hl))
  · left; simpa using hl

theorem alike_value {f g : Field} (h : alike f g = true) (data : List Byte) (pos : Nat) :
    fieldValue env data f pos = fieldValue env data g pos := by
  obtain ⟨a1, a2, a3, a4⟩ := alike_spec h
  have hn : ∀ x, numeric f x = numeric g x := by
    intro x; unfold numeric fieldInt; rw [a1, a2, a3]
  have a4' : g.res = .lookup → lookupName f.units = lookupName g.units := fun h => a4 (a2.trans h)
  unfold fieldValue
  simp only [a1, a2, hn]
  cases hres : g.res <;> simp only
  have := a4' hres
  cases hf : f.units <;> cases hg : g.units <;> rw [hf, hg] at this <;> simp [lookupName] at this <;> simp [this]

/-- The fields `0..k` of the two definitions have the same sizes, and are decoded alike unless excepted. -/
def alikeTo (bad bad' : Nat → Bool) (d d' : Pgn) (k : Nat) : Prop :=
  ∀ x, x ≤ k → ∃ f g, d.fieldList[x]? = some f ∧ d'.fieldList[x]? = some g ∧ f.size = g.size ∧
    (bad' x = false → bad x = false ∧ alike f g = true)

/-- At every '=' field of `d`, the fields up to it have the same sizes in `d'` and are decoded alike unless
excepted. -/
def alikeStep (bad bad' : Nat → Bool) (d d' : Pgn) : Bool :=
  d.fieldList.zipIdx.all fun e =>
    match e.1.units with
    | .must _ => (List.range (e.2 + 1)).all fun k =>
        match d.fieldList[k]?, d'.fieldList[k]? with
        | some f, some g => f.size == g.size && (bad' k || (!bad k && alike f g))
        | _, _ => false
    | _ => true

theorem alikeStep_spec {bad bad' : Nat → Bool} {d d' : Pgn} (h : alikeStep bad bad' d d' = true) {k : Nat} {f : Field}
    {v : Nat} (hf : d.fieldList[k]? = some f) (hu : f.units = .must v) : alikeTo bad bad' d d' k := by
  intro x hx
  have h1 := List.all_eq_true.mp h (f, k) (List.mem_zipIdx_iff_getElem?.mpr hf)
  simp only [hu] at h1
  have h2 := List.all_eq_true.mp h1 x (by simp; omega)
  cases h3 : d.fieldList[x]? with
  | none => simp [h3] at h2
  | some a =>
    cases h4 : d'.fieldList[x]? with
    | none => simp [h3, h4] at h2
    | some b =>
      simp only [h3, h4, Bool.and_eq_true, beq_iff_eq, Bool.or_eq_true, Bool.not_eq_true'] at h2
      refine ⟨a, b, rfl, rfl, h2.1, fun hb => ?_⟩
      rcases h2.2 with h5 | h5
      · rw [hb] at h5; cases h5
      · exact h5

theorem alikeTo_position {bad bad' : Nat → Bool} {d d' : Pgn} {k : Nat} (h : alikeTo bad bad' d d' k) :
    ∀ x, x ≤ k + 1 → position d'.fieldList x = position d.fieldList x := by
  intro x
  induction x with
  | zero => intro _; rfl
  | succ x ih =>
    intro hx
    obtain ⟨f, g, hf, hg, ha, _⟩ := h x (by omega)
    rw [position_succ, position_succ, ih (by omega), hf, hg]
    simp only [Option.map_some, Option.getD_some]
    rw [ha]

/-! ## The search for a definition -/

theorem variantLoop_alike {res : Res} {k sb stop bit bits : Nat} :
    ∀ {fuel i : Nat} {d : Pgn} {field : Field} {data : Val} {i' : Nat} {d' : Pgn},
      (∀ t e e', i ≤ t → t + 1 ≤ i' → tbl[t]? = some e → tbl[t + 1]? = some e' → alikeStep (bad t) (bad (t + 1)) e e' = true) →
      tbl[i]? = some d → d.fieldList[k]? = some field →
      variantLoop tbl m res (k : Int) sb stop bit bits fuel i d field data = .ok (i', d') →
      i ≤ i' ∧ alikeTo (bad i) (bad i') d d' k ∨ (i' = i ∧ d' = d) := by
  intro fuel
  induction fuel with
  | zero =>
    intro i d field data i' d' _ _ _ h
    simp only [variantLoop] at h
    injection h with h; injection h with h1 h2
    exact Or.inr ⟨h1.symm, h2.symm⟩
  | succ fuel ih =>
    intro i d field data i' d' hA hd hf h
    unfold variantLoop at h
    simp only [bind, Except.bind] at h
    split at h
    · cases h
    · rename_i data' hdata
      split at h
      · cases h
      · rename_i v hu
        split at h
        · split at h
          · simp only [pure, Except.pure] at h
            injection h with h; injection h with h1 h2
            exact Or.inr ⟨h1.symm, h2.symm⟩
          · split at h
            · cases h
            · rename_i e he
              split at h
              · cases h
              · rename_i g hg
                have he := (goIndex_ok he).2
                have hg := (goIndex_ok hg).2
                rw [show ((i : Int) + 1).toNat = i + 1 by omega] at he
                rw [Int.toNat_natCast] at hg
                have hle : i + 1 ≤ i' := by
                  exact (variantLoop_bounds h).1
                have hstep := alikeStep_spec (hA i d e (Nat.le_refl _) hle hd he) hf hu
                left
                refine ⟨by omega, ?_⟩
                rcases ih (fun t a b h1 h2 => hA t a b (by omega) h2) he hg h with ⟨_, hT⟩ | ⟨h1, h2⟩
                · intro x hx
                  obtain ⟨f1, g1, a1, a2, a3, a4⟩ := hstep x hx
                  obtain ⟨f2, g2, b1, b2, b3, b4⟩ := hT x hx
                  rw [a2] at b1; injection b1 with b1; subst b1
                  refine ⟨f1, g2, a1, b2, a3.trans b3, fun hb => ?_⟩
                  obtain ⟨c1, c2⟩ := b4 hb
                  obtain ⟨c3, c4⟩ := a4 c1
                  exact ⟨c3, alike_trans c4 c2⟩
                · rw [h1, h2]; exact hstep
        · cases h
      · simp only [pure, Except.pure] at h
        injection h with h; injection h with h1 h2
        exact Or.inr ⟨h1.symm, h2.symm⟩

/-- Either the definition stays, or the fields read so far are decoded alike in the new one. -/
theorem switch_alike (hg : ∀ d ∈ tbl, noMustInGroup d = true) {s : St} {one : Bool} (hany : AnyInv tbl s)
    {field : Field} {stop bits : Nat} {r : Res? Val} {i' index' : Nat} {d' : Pgn}
    (hidx : s.idx < s.d.fieldList.length) (hf : goIndex s.d.fieldList s.idx = .ok field)
    (hA : ∀ t e e', s.i ≤ t → t + 1 ≤ i' → tbl[t]? = some e → tbl[t + 1]? = some e' → alikeStep (bad t) (bad (t + 1)) e e' = true)
    (hv : selectVariant tbl m j one s field stop bits r = .ok (i', d', index')) :
    (i' = s.i ∧ d' = s.d) ∨ (s.idx = s.odx ∧ s.odx < d'.fieldList.length ∧ alikeTo (bad s.i) (bad i') s.d d' s.odx) := by
  by_cases hm : ∃ v, field.units = .must v
  · obtain ⟨v, hm⟩ := hm
    have hfo := goIndex_ok hf
    have hio : s.idx = s.odx := by
      rcases hany.track with ⟨t1, _⟩ | ⟨t1, t2, t3 | ⟨t3, t4, t5⟩⟩
      · exact t1
      · omega
      · exfalso
        have hgs := hg s.d (List.mem_of_getElem? hany.def_)
        simp only [noMustInGroup, Bool.and_eq_true, decide_eq_true_eq] at hgs
        have hmem : field ∈ s.d.fieldList.drop (s.d.fieldList.length - s.d.repeatingFields) := by
          refine List.mem_of_getElem? (i := s.idx.toNat - (s.d.fieldList.length - s.d.repeatingFields)) ?_
          rw [List.getElem?_drop, show s.d.fieldList.length - s.d.repeatingFields +
            (s.idx.toNat - (s.d.fieldList.length - s.d.repeatingFields)) = s.idx.toNat by omega]
          exact hfo.2
        have := List.all_eq_true.mp hgs.2 field hmem
        rw [hm] at this; cases this
    have hk : s.idx.toNat = s.odx := by omega
    rw [hk] at hfo
    obtain ⟨_, _, v3, v4, _, _⟩ := selectVariant_bounds hv
    by_cases e : i' = s.i
    · exact Or.inl ⟨e, v3 e⟩
    · right
      refine ⟨hio, by have := (v4 e).2; omega, ?_⟩
      unfold selectVariant at hv
      split at hv
      · split at hv
        · injection hv with hv; injection hv with h1 h2; exact absurd h1.symm e
        · simp only [bind, Except.bind] at hv
          split at hv
          · cases hv
          · rename_i x t ht
            obtain ⟨i2, d2⟩ := t
            simp only [pure, Except.pure] at hv
            injection hv with hv; injection hv with e1 e2; injection e2 with e2 e3
            subst e1 e2
            rw [hio] at ht
            rcases variantLoop_alike hA hany.def_ hfo.2 ht with ⟨_, h⟩ | ⟨h, _⟩
            · exact h
            · exact absurd h e
      · injection hv with hv; injection hv with h1 h2; exact absurd h1.symm e
  · have := selectVariant_must (fun n hn => hm ⟨n, hn⟩) hv
    exact Or.inl this

/-! ## The invariant -/

theorem entryPos_mono (d : Pgn) {k l : Nat} (h : k ≤ l) : entryPos d k ≤ entryPos d l := by
  induction l with
  | zero => rw [Nat.le_zero.mp h]
  | succ l ih =>
    by_cases e : k = l + 1
    · rw [e]
    · have := ih (by omega)
      rw [entryPos]; omega

theorem entryField_le {n r k : Nat} (hr : r ≤ n) : entryField n r k ≤ k := by
  unfold entryField
  split
  · exact Nat.le_refl _
  · have := Nat.mod_le (k - n) r; omega

/-- What is required of the definitions `i..j`. -/
structure ValDefs (bad : Nat → Nat → Bool) (tbl : List Pgn) (data : List Byte) (i j : Nat) : Prop where
  good : ∀ d ∈ tbl, noMustInGroup d = true
  alike_ : ∀ t e e', i ≤ t → t + 1 ≤ j → tbl[t]? = some e → tbl[t + 1]? = some e' → alikeStep (bad t) (bad (t + 1)) e e' = true
  plain : ∀ t d, i ≤ t → t ≤ j → tbl[t]? = some d → ∀ f ∈ d.fieldList, plainField f = true
  start : ∀ t d, i ≤ t → t ≤ j → tbl[t]? = some d → startFits data d
  lz : ∀ t d, i ≤ t → t ≤ j → tbl[t]? = some d → ∀ (k : Nat) (f : Field), entryOf d k = some f →
    f.res = .stringLZ → entryPos d k < 2048

/-- Place and entries with respect to definition `d`. -/
structure Placed (bad : Nat → Bool) (env : Env) (m : RawMessage) (d : Pgn) (s : St) : Prop where
  pos_ : 8 * s.sb + s.bit = entryPos d s.odx
  vals : ∀ k, k < s.odx → ∃ f, entryOf d k = some f ∧
    entryPos d k / 8 + byteCount f.size ≤ m.data.vis.length ∧
    (bad k = false → s.data.get k = (fieldValue env m.data.vis f (entryPos d k)).getD .nil)
  end_ : s.idx = d.fieldList.length →
    (d.repeatingFields = 0 ∧ s.odx = d.fieldList.length) ∨
    (0 < d.repeatingFields ∧ d.fieldList.length ≤ s.odx ∧ m.data.vis.length ≤ s.sb)

structure ValInv (bad : Nat → Nat → Bool) (tbl : List Pgn) (env : Env) (m : RawMessage) (i j : Nat) (s : St) : Prop where
  any : AnyInv tbl s
  lo : i ≤ s.i
  bit_ : s.bit < 8
  placed : s.i ≤ j → Placed (bad s.i) env m s.d s

/-- The field that comes next starts in its byte and, unless it starts in byte 0, the part of the message it is read
from is as long as the field. -/
theorem val_window {i : Nat} (hV : ValDefs bad tbl m.data.vis i j) {s : St} (h : ValInv bad tbl env m i j s) (hij : s.i ≤ j)
    {field : Field} (hidx : s.idx < s.d.fieldList.length) (hf : goIndex s.d.fieldList s.idx = .ok field) :
    entryOf s.d s.odx = some field ∧ s.sb = entryPos s.d s.odx / 8 ∧ s.bit = entryPos s.d s.odx % 8 ∧
    (s.sb = 0 → byteCount field.size ≤ m.data.vis.length) ∧ field ∈ s.d.fieldList := by
  have hfo := goIndex_ok hf
  have h2 := h.any.track.field hidx
  have h3 : s.idx.toNat = entryField s.d.fieldList.length s.d.repeatingFields s.odx := by omega
  have hp := (h.placed hij).pos_
  have hb := h.bit_
  have hg := hV.good s.d (List.mem_of_getElem? h.any.def_)
  simp only [noMustInGroup, Bool.and_eq_true, decide_eq_true_eq] at hg
  refine ⟨by unfold entryOf; rw [← h3]; exact hfo.2, by omega, by omega, fun h0 => ?_, List.mem_of_getElem? hfo.2⟩
  refine hV.start s.i s.d h.lo hij h.any.def_ s.idx.toNat field hfo.2 ?_
  have hle := entryField_le (n := s.d.fieldList.length) (k := s.odx) hg.1
  have hm := entryPos_mono s.d hle
  rw [← h3] at hm
  rw [entryPos_first (by omega)] at hm
  omega

theorem val_decode {i : Nat} (hV : ValDefs bad tbl m.data.vis i j) {s : St} (h : ValInv bad tbl env m i j s) (hij : s.i ≤ j)
    {field : Field} (hidx : s.idx < s.d.fieldList.length) (hf : goIndex s.d.fieldList s.idx = .ok field)
    (hw : winBytes m.data.vis.length field + s.sb ≤ m.data.vis.length) {r : Res? Val}
    (hr : decodeField env m s.d s.data field s.sb (winBytes m.data.vis.length field + s.sb) s.bit
      (winBits m.data.vis.length field) = .ok r) :
    entryOf s.d s.odx = some field ∧ entryPos s.d s.odx / 8 + byteCount field.size ≤ m.data.vis.length ∧
    winBits m.data.vis.length field = field.size ∧
    r = fieldValue env m.data.vis field (entryPos s.d s.odx) := by
  obtain ⟨hfe, e1, e2, h0, hmem⟩ := val_window hV h hij hidx hf
  have hbc : byteCount field.size ≤ m.data.vis.length := by
    by_cases hs : s.sb = 0
    · exact h0 hs
    · unfold winBytes at hw; unfold byteCount; omega
  obtain ⟨w1, w2⟩ := winBytes_full hbc
  have hc : entryPos s.d s.odx / 8 + byteCount field.size ≤ m.data.vis.length := by omega
  refine ⟨hfe, hc, w2, ?_⟩
  rw [w1, w2, e1, e2] at hr
  have hlz : field.res = .stringLZ → lzSafe m.data.vis (entryPos s.d s.odx / 8) := by
    intro hres l hl hne
    have hlt := hV.lz s.i s.d h.lo hij h.any.def_ _ _ hfe hres
    rcases Nat.lt_or_ge (entryPos s.d s.odx / 8 + l.toNat) 256 with hh | hh
    · exact hh
    · rw [decode_overlong hres hl hne (by omega) hh] at hr; cases hr
  rw [decodeField_eq env m s.d s.data field _ hc
    (hV.plain s.i s.d h.lo hij h.any.def_ field hmem) hlz] at hr
  injection hr with hr
  exact hr.symm

theorem valInv_step {i : Nat} {one : Bool} (hV : ValDefs bad tbl m.data.vis i j) {s s' : St} (h : ValInv bad tbl env m i j s)
    (hs : step tbl env m j one s = .ok (.inl s')) : ValInv bad tbl env m i j s' := by
  have hany' := anyInv_step hV.good h.any hs
  obtain ⟨field, r, i', d', index', hidx, hf, hsb, hw, hr, hv, rfl⟩ := step_inl hs
  obtain ⟨v1, v2, v3, v4, v5, v6⟩ := selectVariant_bounds hv
  have hlo := h.lo
  refine ⟨hany', by simp only; omega, by simp only; omega, fun hij' => ?_⟩
  simp only at hij'
  have hij : s.i ≤ j := by omega
  obtain ⟨hfe, hc, w2, hval⟩ := val_decode hV h hij hidx hf hw hr
  have hP := h.placed hij
  have hk := h.any.keys
  have hnew : s.odx ∉ s.data.map Prod.fst := by rw [hk]; simp
  have hset := DataMap.set_new (r.getD .nil) hnew
  have hg := get_append_new hk (r.getD .nil)
  have hR' : d'.repeatingFields ≤ d'.fieldList.length := by
    have := hV.good d' (List.mem_of_getElem? hany'.def_)
    simp only [noMustInGroup, Bool.and_eq_true, decide_eq_true_eq] at this; exact this.1
  -- the entries so far and the new one, seen from `d'`
  have key : (∃ g, entryOf d' s.odx = some g ∧ field.size = g.size ∧
        (bad i' s.odx = false → alike field g = true)) ∧ entryPos d' s.odx = entryPos s.d s.odx ∧
      (∀ k, k < s.odx → ∃ f, entryOf d' k = some f ∧
        entryPos d' k / 8 + byteCount f.size ≤ m.data.vis.length ∧
        (bad i' k = false → s.data.get k = (fieldValue env m.data.vis f (entryPos d' k)).getD .nil)) ∧
      Track d'.fieldList.length d'.repeatingFields s.idx s.odx ∧ s.idx < d'.fieldList.length := by
    rcases switch_alike hV.good h.any hidx hf
      (fun t e e' h1 h2 => hV.alike_ t e e' (by omega) (by omega)) hv with ⟨ei, e⟩ | ⟨hio, hlt, hT⟩
    · rw [e, ei]
      exact ⟨⟨field, hfe, rfl, fun _ => alike_refl _⟩, rfl, hP.vals, h.any.track, hidx⟩
    · have hposx : ∀ x, x ≤ s.odx → entryPos d' x = entryPos s.d x := by
        intro x hx
        rw [entryPos_first (by omega), entryPos_first (by omega), alikeTo_position hT x (by omega)]
      have hent : ∀ (e : Pgn) x, x < e.fieldList.length → entryOf e x = e.fieldList[x]? := by
        intro e x hx; unfold entryOf entryField; rw [if_pos (Or.inr hx)]
      have hat : ∀ x, x ≤ s.odx → ∀ f, entryOf s.d x = some f → ∃ g, entryOf d' x = some g ∧
          f.size = g.size ∧ (bad i' x = false → bad s.i x = false ∧ alike f g = true) := by
        intro x hx f hfx
        obtain ⟨a, b, h1, h2, h3⟩ := hT x hx
        rw [hent _ _ (by omega), h1] at hfx; injection hfx with hfx; subst hfx
        exact ⟨b, by rw [hent _ _ (by omega)]; exact h2, h3⟩
      obtain ⟨g, g1, g2, g3⟩ := hat s.odx (Nat.le_refl _) field hfe
      refine ⟨⟨g, g1, g2, fun hb => (g3 hb).2⟩, hposx _ (Nat.le_refl _), fun k hk => ?_, Or.inl ⟨hio, by omega⟩, by omega⟩
      obtain ⟨f, f1, f2, f3⟩ := hP.vals k hk
      obtain ⟨g, g1, g2, g3⟩ := hat k (by omega) f f1
      refine ⟨g, g1, ?_, fun hb => ?_⟩
      · rw [hposx k (by omega), ← g2]; exact f2
      · rw [hposx k (by omega), ← alike_value (g3 hb).2]; exact f3 (g3 hb).1
  obtain ⟨⟨g, hge, hsz, hga⟩, hpe, hvals, ht, hidx'⟩ := key
  have hpos := hP.pos_
  refine ⟨?_, ?_, ?_⟩
  · simp only [entryPos, hge, Option.map_some, Option.getD_some, w2]
    omega
  · intro k hlt
    simp only at hlt ⊢
    rw [hset]
    by_cases hkk : k = s.odx
    · subst hkk
      refine ⟨g, hge, by rw [hpe, ← hsz]; exact hc, fun hb => ?_⟩
      rw [hg.2, hval, hpe, alike_value (hga hb)]
    · rw [hg.1 k (by omega)]
      exact hvals k (by omega)
  · simp only
    intro hn
    unfold nextIdx at hn
    split at hn
    · omega
    · rename_i hc
      have hidx'' : s.idx = (d'.fieldList.length : Int) - 1 := by omega
      by_cases h0 : d'.repeatingFields = 0
      · left
        refine ⟨h0, ?_⟩
        rcases ht with ⟨t1, _⟩ | ⟨t1, _⟩ <;> omega
      · right
        refine ⟨by omega, ?_, ?_⟩
        · rcases ht with ⟨t1, _⟩ | ⟨_, t1, _⟩ <;> omega
        · have := not_and.mp (not_and.mp hc hidx'') (by omega)
          omega

/-- C117, general form. -/
theorem C117_general {i : Nat} (hdef : definitions tbl m.pgn i j) (hV : ValDefs bad tbl m.data.vis i j) {p : Parsed}
    (h : ParsePacket tbl env m (.ok p)) :
    p.header = m ∧ (p.index ≤ j → ∃ d, tbl[p.index]? = some d ∧ d.pgn = m.pgn ∧ 
      readAs env m.data.vis d (fun k => bad p.index k = true) p.data) := by
  obtain ⟨d0, q, hf, hl, hd, hq⟩ := first_last_of_definitions hdef
  have hr := (C47_range hdef h).1
  rw [ParsePacket_iff hf hl] at h
  obtain ⟨n, hn⟩ := h
  obtain ⟨s', hP, hok, _⟩ := run_inv (ValInv bad tbl env m i j) (fun s s' hs hst => valInv_step hV hs hst)
    ⟨⟨rfl, hd, Or.inl ⟨rfl, by simp [initSt]⟩, rfl⟩, Nat.le_refl _, by simp [initSt],
      fun _ => ⟨rfl, by intro k h; simp [initSt] at h, by
        intro h
        have h : d0.fieldList.length = 0 := by simp only [initSt] at h; omega
        by_cases h0 : d0.repeatingFields = 0
        · left; exact ⟨h0, by simp [initSt, h]⟩
        · have := hV.good d0 (List.mem_of_getElem? hd)
          simp only [noMustInGroup, Bool.and_eq_true, decide_eq_true_eq] at this
          omega⟩⟩ hn
  obtain ⟨he, hstop⟩ := step_inr (hok p rfl)
  subst he
  refine ⟨rfl, fun hij => ?_⟩
  simp only at hij hr ⊢
  rw [hP.any.index_] at hij hr ⊢
  have hlen : s'.data.length = s'.odx := by
    have := congrArg List.length hP.any.keys; simpa using this
  have hPl := hP.placed hij
  refine ⟨s'.d, hP.any.def_, (hdef.2.2 _ _ hP.any.def_).mpr ⟨hr, hij⟩, ?_, ?_, ?_⟩
  · rw [hlen]; exact hP.any.keys
  · intro k hk
    obtain ⟨f, f1, f2, f3⟩ := hPl.vals k (by omega)
    exact ⟨f, f1, f2, fun hb => f3 (by simpa using hb)⟩
  · rw [hlen]
    have hp := hPl.pos_
    have hb := hP.bit_
    rcases hstop with hstop | ⟨field, hidx, hfi, hw⟩
    · have hx : s'.idx = s'.d.fieldList.length := by
        rcases hP.any.track with ⟨t1, t2⟩ | ⟨_, _, t | ⟨t, _, _⟩⟩ <;> omega
      rcases hPl.end_ hx with h1 | ⟨h1, h2, h3⟩
      · exact Or.inl h1
      · exact Or.inr (Or.inl ⟨h1, h2, by omega⟩)
    · right; right
      obtain ⟨hfe, e1, e2, h0, hmem⟩ := val_window hV hP hij hidx hfi
      refine ⟨field, hfe, ?_⟩
      unfold winBytes at hw
      unfold byteCount at h0 ⊢
      omega

/-! ## The shipped table -/

namespace Spec

/-- Entry 2 (industry code) of definitions 181 to 197 of PGN 130816, and entry 5 (mute) of definition 219 of PGN
130820. -/
def misread (t k : Nat) : Prop := (181 ≤ t ∧ t ≤ 197 ∧ k = 2) ∨ (t = 219 ∧ k = 5)

instance (t k : Nat) : Decidable (misread t k) := by unfold misread; infer_instance

end Spec

/-- The same, and entry 2 of definition 198, which is never reached (`C47_text_false`). -/
def apart (t k : Nat) : Prop := misread t k ∨ (t = 198 ∧ k = 2)

instance (t k : Nat) : Decidable (apart t k) := by unfold apart; infer_instance

def alikeCheck (tbl : List Pgn) (e : Pgn × Nat) : Bool :=
  match tbl[e.2 + 1]? with
  | none => true
  | some d' => d'.pgn != e.1.pgn ||
      alikeStep (fun k => decide (apart e.2 k)) (fun k => decide (apart (e.2 + 1) k)) e.1 d'

theorem table_alikeCheck : Table.pgnList.zipIdx.all (alikeCheck Table.pgnList) = true := by
  decide +kernel

theorem table_valDefs {i : Nat} (hdef : definitions Table.pgnList m.pgn i j) (h0 : m.pgn ≠ 60928)
    (hstart : ∀ t d, i ≤ t → t ≤ j → Table.pgnList[t]? = some d → startFits m.data.vis d) :
    ValDefs (fun t k => decide (apart t k)) Table.pgnList m.data.vis i j := by
  refine ⟨table_noMustInGroup, ?_, ?_, hstart, ?_⟩
  · intro t e e' a b he he'
    have hh := List.all_eq_true.mp table_alikeCheck (e, t) (List.mem_zipIdx_iff_getElem?.mpr he)
    have p1 := (hdef.2.2 t e he).mpr ⟨a, by omega⟩
    have p2 := (hdef.2.2 (t + 1) e' he').mpr ⟨by omega, b⟩
    unfold alikeCheck at hh
    simpa only [he', p1, p2, bne_self_eq_false, Bool.false_or] using hh
  · intro t d a b hd
    exact table_plain d (List.mem_of_getElem? hd) (by rw [(hdef.2.2 t d hd).mpr ⟨a, b⟩]; exact h0)
  · intro t d a b hd k f hf hres
    have hF := table_LZField hd (hf : d.fieldList[_]? = some f) hres
    have hz := hF.group d (List.mem_of_getElem? hd) rfl
    have := hF.hi
    rw [entryPos_fixed hz]
    unfold entryField at this
    rw [if_pos (Or.inl hz)] at this
    exact this

/-! ### The text message of Simrad -/

theorem text_fields : ∀ t, t < 198 → 180 ≤ t → ∀ d, Table.pgnList[t]? = some d →
    d.repeatingFields = 0 ∧ ∀ (k : Nat) f, d.fieldList[k]? = some f → k ≠ 0 → f.res ≠ .manufacturer := by
  have h : ∀ t, t < 198 → 180 ≤ t → (match Table.pgnList[t]? with
    | none => true
    | some d => decide (d.repeatingFields = 0) && d.fieldList.zipIdx.all (fun x => x.2 == 0 || decide (x.1.res ≠ .manufacturer))) = true := by
    decide +kernel
  intro t h1 h2 d hd
  have h := h t h1 h2
  rw [hd] at h
  simp only [Bool.and_eq_true, decide_eq_true_eq] at h
  refine ⟨h.1, fun k f hf hk => ?_⟩
  have := List.all_eq_true.mp h.2 (f, k) (List.mem_zipIdx_iff_getElem?.mpr hf)
  simpa [hk] using this

theorem text_last : ∀ (k : Nat) f v, k ≠ 0 → Table.p197.fieldList[k]? = some f → f.units = .must v →
    ∀ g, Table.p198.fieldList[k]? = some g → g.units = .must v := by
  have h : Table.p197.fieldList.zipIdx.all (fun x => x.2 == 0 || (match x.1.units with
    | .must v => (match Table.p198.fieldList[x.2]? with | some g => g.units == .must v | none => true)
    | _ => true)) = true := by decide +kernel
  intro k f v hk hf hu g hg
  have := List.all_eq_true.mp h (f, k) (List.mem_zipIdx_iff_getElem?.mpr hf)
  simpa [hk, hu, hg] using this

/-- The search on a field other than the first does not end at the last definition of PGN 130816. -/
theorem variantLoop_text {res : Res} (hres : res ≠ .manufacturer) {k : Nat} (hk : k ≠ 0) {sb stop bit bits : Nat} :
    ∀ {fuel i : Nat} {d : Pgn} {field : Field} {data : Val} {i' : Nat} {d' : Pgn}, i + fuel = 199 → i ≤ 197 →
      Table.pgnList[i]? = some d → d.fieldList[k]? = some field →
      variantLoop Table.pgnList m res (k : Int) sb stop bit bits fuel i d field data = .ok (i', d') → i' ≠ 198 := by
  intro fuel
  induction fuel with
  | zero => intro i d field data i' d' h1 h2; omega
  | succ fuel ih =>
    intro i d field data i' d' h1 h2 hd hf h
    unfold variantLoop at h
    simp only [variantData, if_neg hres, bind, Except.bind, pure, Except.pure] at h
    split at h
    · cases h
    · rename_i v hu
      split at h
      · rename_i n
        split at h
        · injection h with h; injection h with h3 _; omega
        · rename_i hne
          split at h
          · cases h
          · rename_i e he
            obtain ⟨_, he⟩ := goIndex_ok he
            rw [show ((i : Int) + 1).toNat = i + 1 by omega] at he
            split at h
            · cases h
            · rename_i g hg
              obtain ⟨_, hg⟩ := goIndex_ok hg
              simp only [Int.toNat_natCast] at hg
              by_cases hi : i = 197
              · subst hi
                rw [show Table.pgnList[197]? = some Table.p197 by decide +kernel] at hd
                rw [show Table.pgnList[197 + 1]? = some Table.p198 by decide +kernel] at he
                obtain rfl := Option.some.inj hd
                obtain rfl := Option.some.inj he
                have hgu := text_last k field v hk hf hu g hg
                obtain rfl : fuel = 1 := by omega
                unfold variantLoop at h
                simp only [variantData, if_neg hres, bind, Except.bind, hgu, if_neg hne] at h
                split at h
                · cases h
                · split at h
                  · cases h
                  · simp only [variantLoop] at h
                    injection h with h; injection h with h3 _; omega
              · exact ih (by omega) (by omega) he hg h
      · cases h
    · injection h with h; injection h with h3 _; omega

/-- The search on the first field ends at the second definition at the latest. -/
theorem variantLoop_first {res : Res} {sb stop bit bits fuel : Nat} {field : Field} {data : Val} {i' : Nat} {d d' : Pgn}
    (h : variantLoop Table.pgnList m res (0 : Nat) sb stop bit bits (fuel + 1) 180 d field data = .ok (i', d')) : i' ≤ 181 := by
  unfold variantLoop at h
  simp only [bind, Except.bind, pure, Except.pure] at h
  split at h
  · cases h
  · split at h
    · cases h
    · split at h
      · split at h
        · injection h with h; injection h with h3 _; omega
        · split at h
          · cases h
          · rename_i e he
            obtain ⟨_, he⟩ := goIndex_ok he
            rw [show (((180 : Nat) : Int) + 1).toNat = 181 by omega] at he
            rw [show Table.pgnList[181]? = some Table.p181 by decide +kernel] at he
            obtain rfl := Option.some.inj he
            split at h
            · cases h
            · rename_i g hg
              obtain ⟨_, hg⟩ := goIndex_ok hg
              have hm : ∀ n, g.units ≠ .must n := by
                have : Table.p181.fieldList[0]?.map (·.units) = some (.lookup "lookupCompanyCode") := by decide +kernel
                simp only [Nat.cast_zero, Int.toNat_zero] at hg
                rw [hg] at this
                simp only [Option.map_some, Option.some.injEq] at this
                rw [this]; intro n hn; cases hn
              have := (variantLoop_must hm h).1
              omega
      · cases h
    · injection h with h; injection h with h3 _; omega

/-- C47 is false of PGN 130816: no message of it, of whatever length and content, is read as its last definition, the text message of Simrad. -/
theorem C47_text_false (hm : m.pgn = 130816) {p : Parsed} (h : ParsePacket Table.pgnList env m (.ok p)) : p.index ≠ 198 := by
  have hdef : definitions Table.pgnList m.pgn 180 198 := by rw [hm]; exact definitionsB_spec (by decide +kernel)
  obtain ⟨d0, q, hf, hl, hd, hq⟩ := first_last_of_definitions hdef
  rw [ParsePacket_iff hf hl, show ((180 : Nat) == 198) = false by rfl] at h
  obtain ⟨n, hn⟩ := h
  have hany : AnyInv Table.pgnList (initSt 180 d0) := ⟨rfl, hd, Or.inl ⟨rfl, by simp [initSt]⟩, rfl⟩
  have hstep : ∀ s s', (AnyInv Table.pgnList s ∧ (s.i = 199 ∨ (180 ≤ s.i ∧ s.i ≤ 197 ∧ 0 ≤ s.idx ∧ (s.idx = 0 → s.i = 180)))) →
      step Table.pgnList env m 198 false s = .ok (.inl s') →
      (AnyInv Table.pgnList s' ∧ (s'.i = 199 ∨ (180 ≤ s'.i ∧ s'.i ≤ 197 ∧ 0 ≤ s'.idx ∧ (s'.idx = 0 → s'.i = 180)))) := by
    rintro s s' ⟨hA, hs⟩ hst
    have hA' := anyInv_step table_noMustInGroup hA hst
    refine ⟨hA', ?_⟩
    obtain ⟨field, r, i', d', index', hidx, hfo, hsb, hw, hr, hv, rfl⟩ := step_inl hst
    obtain ⟨v1, v2, _⟩ := selectVariant_bounds hv
    have hdd := hA'.def_
    simp only at hdd ⊢
    rcases hs with hs | ⟨s0, s1, s2, s3⟩
    · left; omega
    · obtain ⟨_, hfo⟩ := goIndex_ok hfo
      have key : i' ≠ 198 ∧ (s.idx = 0 → i' ≤ 181) := by
        unfold selectVariant at hv
        split at hv
        · rename_i v
          simp only [Bool.false_eq_true, if_false, bind, Except.bind] at hv
          split at hv
          · cases hv
          · rename_i t ht
            obtain ⟨i2, d2⟩ := t
            simp only [pure, Except.pure] at hv
            injection hv with hv; injection hv with e1 e2
            subst e1
            by_cases h0 : s.idx = 0
            · have hi := s3 h0
              have := variantLoop_first (m := m) (fuel := 18) (d := s.d) (d' := d2) (i' := i2) (res := field.res) (field := field) (data := v)
                (by rw [← ht, hi, h0]; rfl)
              omega
            · refine ⟨?_, fun h => absurd h h0⟩
              have hkn : s.idx = (s.idx.toNat : Int) := by omega
              rw [hkn] at ht
              refine variantLoop_text ?_ (k := s.idx.toNat) (by omega) (by omega) s1 hA.def_ hfo ht
              exact (text_fields s.i (by omega) s0 s.d hA.def_).2 _ _ hfo (by omega)
        · injection hv with hv; injection hv with e1 e2
          subst e1
          exact ⟨by omega, fun h => by have := s3 h; omega⟩
      by_cases h199 : i' = 199
      · left; exact h199
      · right
        have hr0 := (text_fields i' (by omega) (by omega) d' hdd).1
        have hx : nextIdx m.data.vis.length d' s.idx (s.sb + (winBits m.data.vis.length field + s.bit) / 8) = s.idx + 1 := by
          unfold nextIdx; simp [hr0]
        rw [hx]
        refine ⟨by omega, by omega, by omega, fun h => by omega⟩
  obtain ⟨s', ⟨hA, hP⟩, hok, _⟩ := run_inv _ hstep ⟨hany, .inr (by simp [initSt])⟩ hn
  obtain ⟨he, _⟩ := step_inr (hok p rfl)
  subst he
  simp only [hA.index_]
  omega

/-- A text message of Simrad (manufacturer 1857, identifier 50), as that definition requires it, is read as definition 197. -/
example : ∃ p, ParsePacket Table.pgnList (shippedEnv fun _ => 0) ⟨0, 130816, 0, 0, 0, ⟨[0x41, 0x87, 0, 50], []⟩⟩ (.ok p) ∧
    p.index = 197 := by
  have hc : (match parsePacketN Table.pgnList (shippedEnv fun _ => 0) ⟨0, 130816, 0, 0, 0, ⟨[0x41, 0x87, 0, 50], []⟩⟩ 20 with
    | some (.ok p) => decide (p.index = 197)
    | _ => false) = true := by decide +kernel
  split at hc
  · rename_i p hp
    exact ⟨p, ⟨20, hp⟩, of_decide_eq_true hc⟩
  · cases hc

/-- C117 (partial): for every PGN of the shipped table other than 60928 and every message in which the fields starting
in its first byte lie within it: if ParsePacket returns a definition of that PGN, the entries are that definition's
fields, all of them, each decoded at its place; excepted are the values of the `misread` entries. -/
theorem C117_partial {i : Nat} (hdef : definitions Table.pgnList m.pgn i j) (h0 : m.pgn ≠ 60928)
    (hstart : ∀ t d, i ≤ t → t ≤ j → Table.pgnList[t]? = some d → startFits m.data.vis d) {p : Parsed}
    (h : ParsePacket Table.pgnList env m (.ok p)) :
    p.header = m ∧ (p.index ≤ j → ∃ d, Table.pgnList[p.index]? = some d ∧ d.pgn = m.pgn ∧
      readAs env m.data.vis d (misread p.index) p.data) := by
  obtain ⟨r1, r2⟩ := C117_general hdef (table_valDefs hdef h0 hstart) h
  refine ⟨r1, fun hij => ?_⟩
  obtain ⟨d, d1, d2, d3, d4, d5⟩ := r2 hij
  refine ⟨d, d1, d2, d3, fun k hk => ?_, d5⟩
  obtain ⟨f, f1, f2, f3⟩ := d4 k hk
  refine ⟨f, f1, f2, fun hb => f3 ?_⟩
  show ¬ decide (apart p.index k) = true
  rw [decide_eq_true_eq]
  rintro (ha | ⟨ha, _⟩)
  · exact hb ha
  · rw [ha, show Table.pgnList[198]? = some Table.p198 by decide +kernel] at d1
    obtain rfl := Option.some.inj d1
    exact C47_text_false (d2.symm.trans (by decide +kernel)) h ha

/-- The fields that start in the first byte of a message of a PGN with several definitions end in its second. -/
theorem C117_start {i : Nat} {pgn : Nat} (hdef : definitions Table.pgnList pgn i j) (hij : i < j)
    {data : List Byte} (hlen : 2 ≤ data.length) :
    ∀ t d, i ≤ t → t ≤ j → Table.pgnList[t]? = some d → startFits data d := by
  have h : Table.pgnList.zipIdx.all (fun e =>
      !(Table.pgnList.zipIdx.any (fun e' => e'.1.pgn == e.1.pgn && e'.2 != e.2)) ||
      e.1.fieldList.zipIdx.all (fun x => decide (8 ≤ position e.1.fieldList x.2) || decide (byteCount x.1.size ≤ 2))) = true := by
    decide +kernel
  intro t d a b hd k f hf hp
  have h1 := List.all_eq_true.mp h (d, t) (List.mem_zipIdx_iff_getElem?.mpr hd)
  have pd := (hdef.2.2 t d hd).mpr ⟨a, b⟩
  have hany : Table.pgnList.zipIdx.any (fun e' => e'.1.pgn == d.pgn && e'.2 != t) = true := by
    rw [List.any_eq_true]
    obtain ⟨u, hu1, hu2, hu3⟩ : ∃ u, i ≤ u ∧ u ≤ j ∧ u ≠ t := by
      by_cases e : t = i
      · exact ⟨j, by omega, by omega, by omega⟩
      · exact ⟨i, by omega, by omega, by omega⟩
    have hx := List.getElem?_eq_getElem (show u < Table.pgnList.length by have := hdef.2.1; omega)
    refine ⟨(_, u), List.mem_zipIdx_iff_getElem?.mpr hx, ?_⟩
    simp [(hdef.2.2 u _ hx).mpr ⟨hu1, hu2⟩, pd, hu3]
  simp only [hany, Bool.not_true, Bool.false_or] at h1
  have h2 := List.all_eq_true.mp h1 (f, k) (List.mem_zipIdx_iff_getElem?.mpr hf)
  simp only [Bool.or_eq_true, decide_eq_true_eq] at h2
  omega

/-! ### Messages that satisfy the definition they are read as -/

/-- Entry `k` is field `k` of the definition the search had come to before field `k`. -/
theorem C117_origin {i : Nat} (hdef : definitions tbl m.pgn i j) (hij : i < j) (hS : SelDefs tbl m.data.vis i j)
    (hV : ValDefs bad tbl m.data.vis i j) {p : Parsed} (h : ParsePacket tbl env m (.ok p)) (hle : p.index ≤ j)
    {k : Nat} (hk : k < p.data.length) :
    ∃ d f, tbl[sel tbl m.data.vis i j k]? = some d ∧ entryOf d k = some f ∧
      p.data.get k = (fieldValue env m.data.vis f (entryPos d k)).getD .nil := by
  obtain ⟨d0, q, hf, hl, hd, hq⟩ := first_last_of_definitions hdef
  rw [ParsePacket_iff hf hl, show (i == j) = false by simpa using (by omega : i ≠ j)] at h
  obtain ⟨n, hn⟩ := h
  have hany : AnyInv tbl (initSt i d0) := ⟨rfl, hd, Or.inl ⟨rfl, by simp [initSt]⟩, rfl⟩
  have hsel0 : SelInv tbl m i j (initSt i d0) := by
    by_cases hm : mustFrom d0 0
    · exact ⟨hany, by simp [initSt], Or.inl ⟨rfl, rfl, Nat.le_refl _, by simp only [initSt]; omega, rfl, hm⟩⟩
    · exact selInv_settle hany (by simp [initSt]) rfl (Or.inr hm)
  have hval0 : ValInv bad tbl env m i j (initSt i d0) := by
    refine ⟨hany, Nat.le_refl _, by simp [initSt], fun _ => ⟨rfl, by intro k h; simp [initSt] at h, ?_⟩⟩
    intro h
    have h : d0.fieldList.length = 0 := by simp only [initSt] at h; omega
    by_cases h0 : d0.repeatingFields = 0
    · left; exact ⟨h0, by simp [initSt, h]⟩
    · have := hV.good d0 (List.mem_of_getElem? hd)
      simp only [noMustInGroup, Bool.and_eq_true, decide_eq_true_eq] at this
      omega
  have hstep : ∀ s s', (SelInv tbl m i j s ∧ ValInv bad tbl env m i j s ∧
      (s.i ≤ j → k < s.odx → ∃ d f, tbl[sel tbl m.data.vis i j k]? = some d ∧ entryOf d k = some f ∧
        s.data.get k = (fieldValue env m.data.vis f (entryPos d k)).getD .nil)) →
      step tbl env m j false s = .ok (.inl s') → (SelInv tbl m i j s' ∧ ValInv bad tbl env m i j s' ∧
      (s'.i ≤ j → k < s'.odx → ∃ d f, tbl[sel tbl m.data.vis i j k]? = some d ∧ entryOf d k = some f ∧
        s'.data.get k = (fieldValue env m.data.vis f (entryPos d k)).getD .nil)) := by
    rintro s s' ⟨hs, hv, hP⟩ hst
    refine ⟨selInv_step hS hs hst, valInv_step hV hv hst, ?_⟩
    obtain ⟨field, r, i', d', index', hidx, hf, hsb, hw, hr, hvar, rfl⟩ := step_inl hst
    obtain ⟨v1, _⟩ := selectVariant_bounds hvar
    intro hij' hlt
    simp only at hij' hlt ⊢
    have hij2 : s.i ≤ j := by omega
    obtain ⟨hfe, hc, w2, hval⟩ := val_decode hV hv hij2 hidx hf hw hr
    have hk := hv.any.keys
    have hnew : s.odx ∉ s.data.map Prod.fst := by rw [hk]; simp
    have hset := DataMap.set_new (r.getD .nil) hnew
    have hg := get_append_new hk (r.getD .nil)
    rw [hset]
    by_cases hkk : k = s.odx
    · subst hkk
      have hsi : sel tbl m.data.vis i j s.odx = s.i := by
        rcases hs.2.2 with ⟨_, a, _⟩ | ⟨a, _⟩
        · exact a.symm
        · exact a s.odx (Nat.le_refl _)
      exact ⟨s.d, field, by rw [hsi]; exact hv.any.def_, hfe, by rw [hg.2, hval]⟩
    · rw [hg.1 k (by omega)]
      exact hP hij2 (by omega)
  obtain ⟨s', ⟨hs, hv, hP⟩, hok, _⟩ := run_inv _ hstep ⟨hsel0, hval0, fun _ h => by simp [initSt] at h⟩ hn
  obtain ⟨he, _⟩ := step_inr (hok p rfl)
  subst he
  have hlen : s'.data.length = s'.odx := by
    have := congrArg List.length hv.any.keys; simpa using this
  simp only [hv.any.index_] at hle hk
  exact hP hle (by omega)

theorem sonichub_alike : ∀ t, t < 198 → 182 ≤ t → ∃ d f g, Table.pgnList[t]? = some d ∧ d.fieldList[0]? = some f ∧
    f.units = .must 275 ∧ f.size = 11 ∧ entryOf d 2 = some g ∧ entryPos d 2 = 13 ∧
    alike ⟨"Industry Code", 3, .lookup, false, .lookup "lookupIndustryCode", "", "", 0⟩ g = true := by
  have h : ∀ t, t < 198 → 182 ≤ t → (match Table.pgnList[t]? with
    | none => false
    | some d => match d.fieldList[0]?, entryOf d 2 with
      | some f, some g => f.units == .must 275 && f.size == 11 && decide (entryPos d 2 = 13) &&
        alike ⟨"Industry Code", 3, .lookup, false, .lookup "lookupIndustryCode", "", "", 0⟩ g
      | _, _ => false) = true := by decide +kernel
  intro t h1 h2
  have h := h t h1 h2
  split at h
  · cases h
  · rename_i d hd
    split at h
    · rename_i f g hf hg
      simp only [Bool.and_eq_true, beq_iff_eq, decide_eq_true_eq] at h
      exact ⟨d, f, g, hd, hf, h.1.1.1, h.1.1.2, hg, h.1.2, h.2⟩
    · cases h

theorem refuses_bits {data : List Byte} {d : Pgn} {k v n pos : Nat} (hr : refuses data d k = false)
    (hf : d.fieldList[k]?.map (fun f => (f.units, f.size)) = some (.must v, n)) (hp : position d.fieldList k = pos) :
    bitsAt data pos n = v := by
  cases hg : d.fieldList[k]? with
  | none => rw [hg] at hf; cases hf
  | some f =>
    rw [hg] at hf
    simp only [Option.map_some, Option.some.injEq, Prod.mk.injEq] at hf
    unfold refuses at hr
    rw [hg] at hr
    simp only [hf.1, hf.2, hp, decide_eq_false_iff_not, ne_eq, Decidable.not_not] at hr
    exact hr.symm

/-- C117: when the message satisfies the '=' constraints of the definition it is read as, every entry is that
definition's field, decoded at its place. -/
theorem C117_satisfied {i : Nat} (hdef : definitions Table.pgnList m.pgn i j) (h0 : m.pgn ≠ 60928)
    (hstart : ∀ t d, i ≤ t → t ≤ j → Table.pgnList[t]? = some d → startFits m.data.vis d)
    (hreach : ∀ t d, i ≤ t → t ≤ j → Table.pgnList[t]? = some d → reachesConstraints m.data.vis d) {p : Parsed}
    (h : ParsePacket Table.pgnList env m (.ok p)) {d : Pgn} (hle : p.index ≤ j)
    (hd : Table.pgnList[p.index]? = some d) (hsat : satisfied m.data.vis d) :
    readAs env m.data.vis d (fun _ => False) p.data := by
  obtain ⟨_, r2⟩ := C117_partial hdef h0 hstart h
  obtain ⟨d', d1, d2, d3, d4, d5⟩ := r2 hle
  rw [hd] at d1; have d1 := Option.some.inj d1; subst d1
  refine ⟨d3, fun k hk => ?_, d5⟩
  obtain ⟨f, f1, f2, f3⟩ := d4 k hk
  refine ⟨f, f1, f2, fun _ => ?_⟩
  by_cases hm : misread p.index k
  swap
  · exact f3 hm
  have hpgn : ∀ t, t < 220 → (181 ≤ t → t ≤ 197 → Table.pgnList[t]?.map (·.pgn) = some 130816) ∧
      (t = 219 → Table.pgnList[t]?.map (·.pgn) = some 130820) := by decide +kernel
  rcases hm with ⟨a, b, rfl⟩ | ⟨a, rfl⟩
  · have hp := (hpgn p.index (by omega)).1 a b
    rw [hd] at hp
    simp only [Option.map_some, Option.some.injEq] at hp
    have hq : m.pgn = 130816 := d2.symm.trans hp
    have hdq : definitions Table.pgnList m.pgn 180 198 := by rw [hq]; exact definitionsB_spec (by decide +kernel)
    obtain ⟨rfl, rfl⟩ := definitions_eq hdq hdef
    by_cases e1 : p.index = 181
    · exfalso
      rw [e1, show Table.pgnList[181]? = some Table.p181 by decide +kernel] at hd
      have hd := Option.some.inj hd; subst hd
      have := refuses_bits (hsat 2) (v := 275) (n := 3) (pos := 13) (by decide +kernel) (by decide +kernel)
      have hlt := bitsAt_lt m.data.vis 13 3
      omega
    · obtain ⟨d', g0, g, c1, c2, c3, c4, c5, c6, c7⟩ := sonichub_alike p.index (by omega) (by omega)
      rw [hd] at c1; have c1 := Option.some.inj c1; subst c1
      rw [f1] at c5; have c5 := Option.some.inj c5; subst c5
      have b1 := refuses_bits (hsat 0) (v := 275) (n := 11) (pos := 0) (by rw [c2]; simp [c3, c4]) rfl
      have hd180 : Table.pgnList[180]? = some Table.p180 := by decide +kernel
      have n0 : refuses m.data.vis Table.p180 0 = false := by
        have u : Table.p180.fieldList[0]?.map (fun f => (f.units, f.size)) = some (.must 275, 11) := by decide +kernel
        unfold refuses
        cases hg : Table.p180.fieldList[0]? with
        | none => rfl
        | some x =>
          rw [hg] at u
          simp only [Option.map_some, Option.some.injEq, Prod.mk.injEq] at u
          simp only [u.1, u.2, decide_eq_false_iff_not, ne_eq, Decidable.not_not]
          exact b1.symm
      have n1 : refuses m.data.vis Table.p180 1 = false := by
        have u : Table.p180.fieldList[1]?.map (fun f => f.units) = some .nil := by decide +kernel
        unfold refuses
        cases hg : Table.p180.fieldList[1]? with
        | none => rfl
        | some x =>
          rw [hg] at u
          simp only [Option.map_some, Option.some.injEq] at u
          simp only [u]
      have s1 : sel Table.pgnList m.data.vis 180 198 1 = 180 := advance_stay hd180 n0
      have s2 : sel Table.pgnList m.data.vis 180 198 2 = 180 := by
        have : sel Table.pgnList m.data.vis 180 198 2 = advance Table.pgnList m.data.vis 1
          (199 - sel Table.pgnList m.data.vis 180 198 1) (sel Table.pgnList m.data.vis 180 198 1) := rfl
        rw [this, s1]; exact advance_stay hd180 n1
      obtain ⟨e, x, x1, x2, x3⟩ := C117_origin hdef (by omega) (table_selDefs hdef (by omega) hreach)
        (table_valDefs hdef h0 hstart) h hle hk
      rw [s2, hd180] at x1; have x1 := Option.some.inj x1; subst x1
      have hx : entryOf Table.p180 2 =
          some ⟨"Industry Code", 3, .lookup, false, .lookup "lookupIndustryCode", "", "", 0⟩ := by decide +kernel
      rw [hx] at x2; have x2 := Option.some.inj x2; subst x2
      have hpos : entryPos Table.p180 2 = 13 := by decide +kernel
      rw [x3, hpos, c6, alike_value c7]
  · have hp := (hpgn p.index (by omega)).2 a
    rw [hd] at hp
    simp only [Option.map_some, Option.some.injEq] at hp
    have hq : m.pgn = 130820 := d2.symm.trans hp
    have hdq : definitions Table.pgnList m.pgn 202 238 := by rw [hq]; exact definitionsB_spec (by decide +kernel)
    obtain ⟨rfl, rfl⟩ := definitions_eq hdq hdef
    have hd219 : Table.pgnList[219]? = some Table.p219 := by decide +kernel
    rw [a, hd219] at hd
    have hd := Option.some.inj hd; subst hd
    have b1 := refuses_bits (hsat 0) (v := 419) (n := 11) (pos := 0) (by decide +kernel) (by decide +kernel)
    have b2 := refuses_bits (hsat 3) (v := 23) (n := 8) (pos := 16) (by decide +kernel) (by decide +kernel)
    have hpl : placesB Table.pgnList 202 238 6 [(0, 11), (16, 8), (32, 8)] = true := by decide +kernel
    have hrd : ∀ x ∈ [(0, 11), (16, 8), (32, 8)],
        read3 419 23 (bitsAt m.data.vis 32 8) x.1 x.2 = bitsAt m.data.vis x.1 x.2 := by
      intro x hx
      simp only [List.mem_cons, List.not_mem_nil, or_false] at hx
      rcases hx with rfl | rfl | rfl
      · simp [read3, b1]
      · simp [read3, b2]
      · simp [read3]
    have hsel : sel Table.pgnList m.data.vis 202 238 5 = 219 := by
      rw [← selR_eq (by omega) hpl hrd]
      have key : ∀ c, c < 256 → selR Table.pgnList (read3 419 23 c) 202 238 5 = 219 := by decide +kernel
      exact key _ (bitsAt_lt m.data.vis 32 8)
    obtain ⟨e, x, x1, x2, x3⟩ := C117_origin hdef (by omega) (table_selDefs hdef (by omega) hreach)
      (table_valDefs hdef h0 hstart) h hle hk
    rw [hsel, hd219] at x1; have x1 := Option.some.inj x1; subst x1
    rw [f1] at x2; have x2 := Option.some.inj x2; subst x2
    exact x3

/-- C117, together with C47: a message of a PGN with several definitions, one of which it satisfies, is returned as the
first it satisfies, with all of that definition's fields, each decoded at its place (130816 and 130820 excepted). -/
theorem C117_decoded {i : Nat} (hdef : definitions Table.pgnList m.pgn i j) (hij : i < j) (h1 : m.pgn ≠ 130816)
    (h2 : m.pgn ≠ 130820) (hlen : 2 ≤ m.data.vis.length)
    (hreach : ∀ t d, i ≤ t → t ≤ j → Table.pgnList[t]? = some d → reachesConstraints m.data.vis d)
    (hex : ∃ t d, i ≤ t ∧ t ≤ j ∧ Table.pgnList[t]? = some d ∧ satisfied m.data.vis d) {p : Parsed}
    (h : ParsePacket Table.pgnList env m (.ok p)) :
    p.header = m ∧ ∃ d, Table.pgnList[p.index]? = some d ∧ d.pgn = m.pgn ∧ satisfied m.data.vis d ∧
      (∀ x e, i ≤ x → x < p.index → Table.pgnList[x]? = some e → ¬ satisfied m.data.vis e) ∧
      readAs env m.data.vis d (fun _ => False) p.data := by
  have h0 : m.pgn ≠ 60928 := by
    intro e
    have h3 : definitions Table.pgnList m.pgn 3 3 := by rw [e]; exact definitionsB_spec (by decide +kernel)
    have := definitions_eq h3 hdef
    omega
  have hst := C117_start hdef hij hlen
  rcases C47_partial hdef hij h1 h2 hreach h with ⟨_, a2, ⟨d, hd, hp, hs⟩, hfirst⟩ | ⟨_, _, hnone⟩
  · exact ⟨(C117_partial hdef h0 hst h).1, d, hd, hp, hs, hfirst, C117_satisfied hdef h0 hst hreach h a2 hd hs⟩
  · obtain ⟨t, d, a, b, hd, hs⟩ := hex
    exact absurd hs (hnone t d a b hd)

/-! ### The names do not depend on sub-lookups -/

theorem decode_sub {env env' : Env} (h1 : env.lookup = env'.lookup) (h2 : env.company = env'.company) {d : Pgn}
    {dm : DataMap} {f : Field} (hf : f.res ≠ .lookup2) (sb stop bit bits : Nat) :
    decodeField env m d dm f sb stop bit bits = decodeField env' m d dm f sb stop bit bits := by
  unfold decodeField
  cases hr : f.res <;> simp only [extractLookupField, extractManufacturer, h1, h2]
  exact absurd hr hf

theorem run_sub {env env' : Env} {one : Bool} (h1 : env.lookup = env'.lookup) (h2 : env.company = env'.company) :
    ∀ n (s : St), tbl[s.i]? = some s.d →
      (∀ (t : Nat) (d : Pgn), s.i ≤ t → tbl[t]? = some d → ∀ f ∈ d.fieldList, f.res ≠ .lookup2) →
      run tbl env m j one n s = run tbl env' m j one n s := by
  intro n
  induction n with
  | zero => intro s _ _; rfl
  | succ n ih =>
    intro s hd hl
    have hst : step tbl env m j one s = step tbl env' m j one s := by
      unfold step
      split
      · rfl
      · cases hf : goIndex s.d.fieldList s.idx with
        | error e => rfl
        | ok field =>
          have hmem := List.mem_of_getElem? (goIndex_ok hf).2
          simp only [bind, Except.bind]
          rw [decode_sub h1 h2 (hl s.i s.d (Nat.le_refl _) hd field hmem)]
    unfold run
    rw [hst]
    cases hs : step tbl env' m j one s with
    | error e => rfl
    | ok x =>
      cases x with
      | inr p => rfl
      | inl s' =>
        simp only
        obtain ⟨field, r, i', d', index', hidx, hf, hsb, hw, hr, hv, rfl⟩ := step_inl hs
        obtain ⟨v1, _, v3, v4, _, _⟩ := selectVariant_bounds hv
        refine ih _ ?_ (fun t d ht => hl t d (by simp only at ht; omega))
        simp only
        by_cases e : i' = s.i
        · rw [e, v3 e]; exact hd
        · exact (v4 e).1

theorem parse_sub {env env' : Env} (h1 : env.lookup = env'.lookup) (h2 : env.company = env'.company) (hne : tbl ≠ [])
    {i : Nat} {d0 : Pgn} (hf : first tbl m.pgn = .ok (i, d0))
    (hl : ∀ (t : Nat) (d : Pgn), i ≤ t → tbl[t]? = some d → ∀ f ∈ d.fieldList, f.res ≠ .lookup2) (n : Nat) :
    parsePacketN tbl env m n = parsePacketN tbl env' m n := by
  unfold parsePacketN
  rw [hf]
  cases last tbl m.pgn with
  | error e => rfl
  | ok x =>
    obtain ⟨jj, q⟩ := x
    refine run_sub h1 h2 _ _ ?_ hl
    obtain ⟨i', d', hf', hd', _⟩ := C33_first tbl m.pgn hne
    rw [hf] at hf'; injection hf' with hf'; injection hf' with e1 e2; subst e1 e2
    exact hd'

theorem table_sub : ∀ (t : Nat) (d : Pgn), 4 ≤ t → Table.pgnList[t]? = some d → ∀ f ∈ d.fieldList, f.res ≠ .lookup2 := by
  have h : Table.pgnList.zipIdx.all (fun e => decide (e.2 < 4) || e.1.fieldList.all (fun f => !(f.res == .lookup2))) = true := by
    decide +kernel
  intro t d ht hd f hf hres
  have := List.all_eq_true.mp h (d, t) (List.mem_zipIdx_iff_getElem?.mpr hd)
  simp only [Bool.or_eq_true, decide_eq_true_eq] at this
  rcases this with h | h
  · omega
  · have := List.all_eq_true.mp h f hf
    rw [hres] at this; simp at this

/-- Entry `k` of the result of ParsePacket for some message is not field `k` of the definition `t` it names. -/
def wrongEntry (env : Env) (t k : Nat) : Prop :=
  ∃ m d f p, Table.pgnList[t]? = some d ∧ entryOf d k = some f ∧ m.pgn = d.pgn ∧
    ParsePacket Table.pgnList env m (.ok p) ∧ p.index = t ∧ k < p.data.length ∧
    p.data.get k ≠ (fieldValue env m.data.vis f (entryPos d k)).getD .nil

/-- Messages that are misread: definition, entry, data. -/
def misreadWitness : List (Nat × Nat × List Byte) :=
  (181, 2, [0x13, 0x81, 0, 4]) :: (219, 5, [0xA3, 0x81, 20, 0, 1]) ::
  [(182, 5), (183, 6), (184, 8), (185, 9), (186, 12), (187, 13), (188, 14), (189, 15), (190, 16), (191, 19), (192, 20),
    (193, 23), (194, 24), (195, 25), (196, 48), (197, 50)].map (fun e => (e.1, 2, [0x41, 0x87, 0, UInt8.ofNat e.2]))

def misreadCheck (env : Env) (w : Nat × Nat × List Byte) : Bool :=
  match Table.pgnList[w.1]? with
  | none => false
  | some d =>
    match entryOf d w.2.1, first Table.pgnList d.pgn, parsePacketN Table.pgnList env ⟨0, d.pgn, 0, 0, 0, ⟨w.2.2, []⟩⟩ 20 with
    | some f, .ok (i, _), some (.ok p) => decide (4 ≤ i) && decide (f.res ≠ .lookup2) && decide (p.index = w.1) &&
        decide (w.2.1 < p.data.length) &&
        !decide (p.data.get w.2.1 = (fieldValue env w.2.2 f (entryPos d w.2.1)).getD .nil)
    | _, _, _ => false

theorem misread_all : misreadWitness.all (misreadCheck (shippedEnv fun _ => 0)) = true := by
  decide +kernel

theorem value_sub {env env' : Env} (h1 : env.lookup = env'.lookup) (h2 : env.company = env'.company) (data : List Byte)
    (f : Field) (pos : Nat) : fieldValue env data f pos = fieldValue env' data f pos := by
  unfold fieldValue; rw [h1, h2]

/-- C117 is false: with the shipped tables of names, for entry 5 of definition 219 and entry 2 of each of the definitions
181 to 197, which are all the entries excepted above, there is a message that is read as that definition and whose entry is not the value of that definition's
field. -/
theorem C117_false (conv : Int → Nat) : ∀ t k, misread t k → wrongEntry (shippedEnv conv) t k := by
  intro t k hm
  have hne : Table.pgnList ≠ [] := List.cons_ne_nil _ _
  have hw : ∃ data, (t, k, data) ∈ misreadWitness := by
    have hall : ∀ t, 181 ≤ t → t ≤ 197 → misreadWitness.any (fun w => w.1 == t && w.2.1 == 2) = true := by
      intro t h1 h2
      have : ∀ t, t < 198 → 181 ≤ t → misreadWitness.any (fun w => w.1 == t && w.2.1 == 2) = true := by decide +kernel
      exact this t (by omega) h1
    have hh : misreadWitness.any (fun w => w.1 == t && w.2.1 == k) = true := by
      rcases hm with ⟨a, b, rfl⟩ | ⟨rfl, rfl⟩
      · exact hall t a (by omega)
      · decide +kernel
    rw [List.any_eq_true] at hh
    obtain ⟨⟨a, b, c⟩, h1, h2⟩ := hh
    simp only [Bool.and_eq_true, beq_iff_eq] at h2
    exact ⟨c, by rw [← h2.1, ← h2.2]; exact h1⟩
  obtain ⟨data, hw⟩ := hw
  have h := List.all_eq_true.mp misread_all _ hw
  unfold misreadCheck at h
  simp only at h
  split at h
  · cases h
  · rename_i d hd
    split at h
    · rename_i f i d0 p hf hfi hp
      simp only [Bool.and_eq_true, decide_eq_true_eq, Bool.not_eq_true', decide_eq_false_iff_not] at h
      obtain ⟨⟨⟨⟨g1, g2⟩, g3⟩, g4⟩, g5⟩ := h
      refine ⟨⟨0, d.pgn, 0, 0, 0, ⟨data, []⟩⟩, d, f, p, hd, hf, rfl, ⟨20, ?_⟩, g3, g4, ?_⟩
      · refine Eq.trans ?_ hp
        refine parse_sub (tbl := Table.pgnList) (m := ⟨0, d.pgn, 0, 0, 0, ⟨data, []⟩⟩) (env := shippedEnv conv)
          (env' := shippedEnv fun _ => 0) rfl rfl hne hfi (fun t d ht hd => ?_) 20
        exact table_sub t d (Nat.le_trans g1 ht) hd
      · rw [value_sub (env := shippedEnv conv) (env' := shippedEnv fun _ => 0) rfl rfl]; exact g5
    · cases h

/-! ### Names -/

/-- **C100** for PGNs with any number of definitions: each entry of a field that looks its number up shows it by its
table, each manufacturer by the table of companies, each plain number as it is (the `misread` entries excepted). -/
theorem C100_any_partial {conv : Int → Nat} {i : Nat} (hdef : definitions Table.pgnList m.pgn i j) (h0 : m.pgn ≠ 60928)
    (hstart : ∀ t d, i ≤ t → t ≤ j → Table.pgnList[t]? = some d → startFits m.data.vis d) {p : Parsed}
    (h : ParsePacket Table.pgnList (shippedEnv conv) m (.ok p)) (hij : p.index ≤ j) :
    ∃ d, Table.pgnList[p.index]? = some d ∧ d.pgn = m.pgn ∧
      ∀ k f, k < p.data.length → ¬ misread p.index k → entryOf d k = some f → straddles (entryPos d k) f.size = false →
      (∀ name t, f.res = .lookup → f.units = .lookup name → (name, t) ∈ Lookups.tables →
        Shows t (bitsAt m.data.vis (entryPos d k) f.size) (p.data.get k)) ∧
      (f.res = .manufacturer →
        Shows Lookups.lookupCompanyCode (bitsAt m.data.vis (entryPos d k) f.size) (p.data.get k)) ∧
      (f.res = .one → f.signed = false → byteCount f.size ≤ 8 →
        p.data.get k = .u64 (bitsAt m.data.vis (entryPos d k) f.size)) := by
  obtain ⟨d, d1, d2, _, d4, _⟩ := (C117_partial hdef h0 hstart h).2 hij
  refine ⟨d, d1, d2, fun k f hk hm hf hst => ?_⟩
  obtain ⟨f', hf', _, hv⟩ := d4 k hk
  have hff : f' = f := by rw [hf] at hf'; exact (Option.some.inj hf').symm
  subst hff
  have hmem : f' ∈ d.fieldList := List.mem_of_getElem? hf
  have hlf := lookup_fields d (List.mem_of_getElem? d1) f' hmem
  rw [hv hm]
  refine ⟨fun name t h1 h2 h3 => ?_, fun h1 => ?_, fun h1 h2 h3 => ?_⟩
  · obtain ⟨a, b⟩ := hlf (Or.inl h1)
    exact value_lookup h1 h2 h3 a b hst
  · obtain ⟨a, b⟩ := hlf (Or.inr (Or.inl h1))
    exact value_company h1 a b hst
  · exact value_unnamed h1 h3 h2 hst

/-! ### Instances -/

/-- PGN 65285 (two definitions), a message of manufacturer 140: the second definition. -/
example : ∃ p d, ParsePacket Table.pgnList (shippedEnv fun _ => 0)
      ⟨0, 65285, 0, 0, 0, ⟨[0x8C, 0x80, 1, 2, 3, 4, 5, 6], []⟩⟩ (.ok p) ∧ definitions Table.pgnList 65285 37 38 ∧
    p.index = 38 ∧ Table.pgnList[38]? = some d ∧ readAs (shippedEnv fun _ => 0) [0x8C, 0x80, 1, 2, 3, 4, 5, 6] d
      (fun _ => False) p.data ∧ 3 ≤ p.data.length := by
  have hdef : definitions Table.pgnList 65285 37 38 := definitionsB_spec (by decide +kernel)
  have hc : (match parsePacketN Table.pgnList (shippedEnv fun _ => 0)
      ⟨0, 65285, 0, 0, 0, ⟨[0x8C, 0x80, 1, 2, 3, 4, 5, 6], []⟩⟩ 20 with
    | some (.ok p) => decide (p.index = 38) && decide (3 ≤ p.data.length)
    | _ => false) = true := by decide +kernel
  split at hc
  · rename_i p hp
    simp only [Bool.and_eq_true, decide_eq_true_eq] at hc
    have hP : ParsePacket Table.pgnList (shippedEnv fun _ => 0)
      ⟨0, 65285, 0, 0, 0, ⟨[0x8C, 0x80, 1, 2, 3, 4, 5, 6], []⟩⟩ (.ok p) := ⟨20, hp⟩
    obtain ⟨d, d1, d2, d3, d4, d5⟩ := (C117_partial hdef (by decide) (C117_start hdef (by omega) (by decide)) hP).2
      (by omega)
    rw [hc.1] at d1
    refine ⟨p, d, hP, hdef, hc.1, d1, ⟨d3, fun k hk => ?_, d5⟩, hc.2⟩
    obtain ⟨f, f1, f2, f3⟩ := d4 k hk
    refine ⟨f, f1, f2, fun _ => f3 (by rw [hc.1]; unfold misread; omega)⟩
  · cases hc

end Argo.Nmea2k
