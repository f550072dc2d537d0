import Verif.Nmea2k.PrintProps

set_option autoImplicit false

/-! # C46: when ParsePacket panics -/

namespace Argo.Nmea2k

open Argo Argo.Nmea2k.Spec

variable {tbl : List Pgn} {env : Env} {m : RawMessage} {j : Nat} {one : Bool}

/-! ## One field -/

theorem extractNumber_ok (m : RawMessage) (f : Field) {start stop offset width : Nat}
    (h1 : start ≤ stop) (h2 : stop ≤ m.data.vis.length) (hw : width ≤ 8 * (stop - start)) :
    ∃ r, extractNumber m f start stop offset width = .ok r ∧
      (stop - start ≤ 8 → ∃ n, r = some (numberValue f n)) := by
  refine ⟨_, extractNumber_eq m f h1 h2 (fun h => by omega), fun h => ?_⟩
  rw [if_neg (by omega)]
  exact ⟨_, rfl⟩

theorem numberValue_raw {f : Field} (hr : f.res.isRaw = true) (hs : f.signed = false) (n : Nat) :
    numberValue f n = .u64 n := by simp [numberValue, hr, hs]

theorem extractString_ok (m : RawMessage) {start stop : Nat} (h1 : start ≤ stop)
    (h2 : stop ≤ m.data.vis.length) : ∃ r, extractString m start stop = .ok r := by
  by_cases h : stop = m.data.vis.length
  · subst h; exact ⟨_, C43_false m start⟩
  · exact ⟨_, C43_partial m h1 (by omega)⟩

/-- Decoding a plain field from bytes of the message does not panic, unless a length prefix wraps. -/
theorem decodeField_safe (env : Env) (m : RawMessage) (d : Pgn) (dm : DataMap) (f : Field)
    {start stop bit width : Nat} (h1 : start ≤ stop) (h2 : stop ≤ m.data.vis.length)
    (hw : width ≤ 8 * (stop - start)) (hp : plainField f = true)
    (hlz : f.res = .stringLZ → lzSafe m.data.vis start) :
    ∃ r, decodeField env m d dm f start stop bit width = .ok r := by
  obtain ⟨rn, hn, hn8⟩ := extractNumber_ok m f (offset := bit) h1 h2 hw
  obtain ⟨rs, hs, _, hsl⟩ := sub_len (s := m.data) h1 h2
  unfold decodeField
  cases hres : f.res with
  | latitude => exact ⟨_, C39_latlon m h1 h2⟩
  | longitude => exact ⟨_, C39_latlon m h1 h2⟩
  | date =>
    simp only [extractDate, hs, bind, Except.bind]
    split
    · exact ⟨_, rfl⟩
    · split <;> exact ⟨_, rfl⟩
  | time =>
    simp only [extractTime, hs, bind, Except.bind]
    split
    · exact ⟨_, rfl⟩
    · split <;> exact ⟨_, rfl⟩
  | temperature => exact ⟨_, C42_scaled m 100 h1 h2⟩
  | pressure => exact ⟨_, C42_scaled m 1000 h1 h2⟩
  | sixBitAscii => simp only [extract6BitASCII, hs, bind, Except.bind]; exact ⟨_, rfl⟩
  | integer => exact ⟨_, hn⟩
  | one => exact ⟨_, hn⟩
  | scale s => exact ⟨_, hn⟩
  | lookup =>
    have hsg : f.signed = false := by
      cases hs : f.signed with
      | false => rfl
      | true => simp [plainField, hres, hs] at hp
    simp only [extractLookupField, hn, bind, Except.bind]
    cases rn with
    | none => exact ⟨_, rfl⟩
    | some v =>
      simp only
      cases hu : f.units with
      | lookup name =>
        simp only
        have h8 : stop - start ≤ 8 := by
          rw [extractNumber_eq m f h1 h2 (fun h => by omega)] at hn
          by_cases h : stop - start > 8
          · rw [if_pos h] at hn; cases hn
          · omega
        obtain ⟨n, hv⟩ := hn8 h8
        injection hv with hv
        rw [hv, numberValue_raw (by rw [hres]; rfl) hsg]
        simp only
        split <;> exact ⟨_, rfl⟩
      | _ => exact ⟨_, rfl⟩
  | lookup2 => simp [plainField, hres] at hp
  | manufacturer =>
    have hsg : f.signed = false := by
      cases hs : f.signed with
      | false => rfl
      | true => simp [plainField, hres, hs] at hp
    simp only [extractManufacturer, hn, bind, Except.bind]
    cases rn with
    | none => exact ⟨_, rfl⟩
    | some v =>
      simp only
      have h8 : stop - start ≤ 8 := by
        rw [extractNumber_eq m f h1 h2 (fun h => by omega)] at hn
        by_cases h : stop - start > 8
        · rw [if_pos h] at hn; cases hn
        · omega
      obtain ⟨n, hv⟩ := hn8 h8
      injection hv with hv
      rw [hv, numberValue_raw (by rw [hres]; rfl) hsg]
      simp only
      split <;> exact ⟨_, rfl⟩
  | stringLZ =>
    have hl := hlz hres
    simp only
    rw [C44_partial]
    cases hg : m.data.vis[start]? with
    | none => exact ⟨_, rfl⟩
    | some l =>
      simp only
      by_cases h0 : l = 0
      · rw [if_pos h0]; exact ⟨_, rfl⟩
      · have := hl l hg h0
        rw [if_neg h0, if_neg (by omega)]
        split <;> exact ⟨_, rfl⟩
  | string => simp only [hs, bind, Except.bind]; exact ⟨_, rfl⟩
  | ascii => exact extractString_ok m h1 h2
  | binary => simp only [hs, bind, Except.bind]; exact ⟨_, rfl⟩
  | float => simp only [hs, bind, Except.bind]; exact ⟨_, rfl⟩
  | notUsed => exact ⟨_, rfl⟩

/-- A raw unsigned field of at most 8 bytes with a non-lookup unit, other than a manufacturer,
decodes to a number. -/
theorem decodeField_u64 (env : Env) (m : RawMessage) (d : Pgn) (dm : DataMap) (f : Field)
    {start stop bit width v : Nat} (h1 : start ≤ stop) (h2 : stop ≤ m.data.vis.length)
    (h8 : stop - start ≤ 8) (hw : width ≤ 8 * (stop - start)) (hraw : f.res.isRaw = true)
    (hs : f.signed = false) (hm : f.res ≠ .manufacturer) (hu : f.units = .must v) :
    ∃ n, decodeField env m d dm f start stop bit width = .ok (some (.u64 n)) := by
  obtain ⟨rn, hn, hn8⟩ := extractNumber_ok m f (offset := bit) h1 h2 hw
  obtain ⟨n, hv⟩ := hn8 h8
  rw [numberValue_raw hraw hs] at hv
  subst hv
  refine ⟨n, ?_⟩
  unfold decodeField
  cases hres : f.res with
  | integer => exact hn
  | one => exact hn
  | lookup => simp only [extractLookupField, hn, bind, Except.bind, hu]; rfl
  | manufacturer => exact absurd hres hm
  | _ => rw [hres] at hraw; cases hraw

/-! ## Moving to the next definition -/

/-- No field is a length-prefixed string. -/
def noLZ (d : Pgn) : Bool := d.fieldList.all (fun f => !(f.res == .stringLZ))

theorem noLZ_spec {d : Pgn} (h : noLZ d = true) {k : Nat} {f : Field} (hf : d.fieldList[k]? = some f) :
    f.res ≠ .stringLZ := by
  have := List.all_eq_true.mp h f (List.mem_of_getElem? hf)
  simpa using this

/-- Every '=' field of `d` ends at the same bit as the field at the same place in `d'`. -/
def samePos (d d' : Pgn) : Bool :=
  d.fieldList.zipIdx.all fun e =>
    match e.1.units with
    | .must _ => position d.fieldList (e.2 + 1) == position d'.fieldList (e.2 + 1)
    | _ => true

theorem samePos_spec {d d' : Pgn} (h : samePos d d' = true) {k : Nat} {f : Field} {v : Nat}
    (hf : d.fieldList[k]? = some f) (hu : f.units = .must v) :
    position d.fieldList (k + 1) = position d'.fieldList (k + 1) := by
  have := List.all_eq_true.mp h (f, k) (List.mem_zipIdx_iff_getElem?.mpr hf)
  simpa [hu] using this

/-- Every '=' field of `d` is an unsigned raw number of at most 64 bits, and definition `d'` has a field
at the same place in its list. -/
def stepOK (d d' : Pgn) : Bool :=
  d.fieldList.zipIdx.all fun e =>
    match e.1.units with
    | .must _ => e.1.res.isRaw && !e.1.signed && decide (e.1.size ≤ 64) &&
        decide (e.2 < d'.fieldList.length)
    | _ => true

theorem stepOK_spec {d d' : Pgn} (h : stepOK d d' = true) {k : Nat} {f : Field} {v : Nat}
    (hf : d.fieldList[k]? = some f) (hu : f.units = .must v) :
    f.res.isRaw = true ∧ f.signed = false ∧ f.size ≤ 64 ∧ k < d'.fieldList.length := by
  have := List.all_eq_true.mp h (f, k) (List.mem_zipIdx_iff_getElem?.mpr hf)
  simp only [hu, Bool.and_eq_true, decide_eq_true_eq, Bool.not_eq_true'] at this
  tauto

/-- The variant search does not panic, and keeps the end position of the field. -/
theorem variantLoop_safe {res : Res} {k sb stop bit bits : Nat}
    (h1 : sb ≤ stop) (h2 : stop ≤ m.data.vis.length) (hw : bits ≤ 8 * (stop - sb))
    (h8 : stop - sb ≤ 8)
    (hne : ∀ d ∈ tbl, ∀ f ∈ d.fieldList, f.units ≠ .empty) :
    ∀ {fuel i : Nat} {d : Pgn} {field : Field} {data : Val}, i + fuel ≤ j + 1 →
      (∀ t e, i ≤ t → t < i + fuel → tbl[t]? = some e → ∃ e', tbl[t + 1]? = some e' ∧
        stepOK e e' = true ∧ (samePos e e' = true ∨ (t = j ∧ noLZ e' = true))) →
      tbl[i]? = some d → d.fieldList[k]? = some field →
      ((∃ v, field.units = .must v) → res = .manufacturer ∨ ∃ n, data = .u64 n) →
      ∃ i' d', variantLoop tbl m res (k : Int) sb stop bit bits fuel i d field data = .ok (i', d') ∧
        (position d'.fieldList (k + 1) = position d.fieldList (k + 1) ∨
          (i' = j + 1 ∧ noLZ d' = true)) := by
  intro fuel
  induction fuel with
  | zero => intro i d field data _ _ _ _ _; exact ⟨i, d, rfl, Or.inl rfl⟩
  | succ fuel ih =>
    intro i d field data hfu hnext hd hf hdata
    obtain ⟨rn, hn, hn8⟩ := extractNumber_ok m field (offset := bit) h1 h2 hw
    obtain ⟨n0, hv0⟩ := hn8 h8
    subst hv0
    have hvd : ∃ data', variantData m res field sb stop bit bits data = .ok data' ∧
        (∀ v, field.units = .must v → ∃ n, data' = .u64 n) := by
      unfold variantData
      by_cases hres : res = .manufacturer
      · rw [if_pos hres]
        simp only [hn, bind, Except.bind, pure, Except.pure, Option.getD_some]
        refine ⟨_, rfl, fun v hu => ?_⟩
        obtain ⟨e', _, hok, _⟩ := hnext i d (by omega) (by omega) hd
        obtain ⟨r1, r2, _⟩ := stepOK_spec hok hf hu
        exact ⟨n0, numberValue_raw r1 r2 n0⟩
      · rw [if_neg hres]
        exact ⟨data, rfl, fun v hu => (hdata ⟨v, hu⟩).resolve_left hres⟩
    obtain ⟨data', hvd, hu64⟩ := hvd
    unfold variantLoop
    rw [hvd]
    simp only [bind, Except.bind]
    cases hu : field.units with
    | empty => exact absurd hu (hne d (List.mem_of_getElem? hd) field (List.mem_of_getElem? hf))
    | must v =>
      obtain ⟨n, hn'⟩ := hu64 v hu
      subst hn'
      simp only
      split
      · exact ⟨i, d, rfl, Or.inl rfl⟩
      · obtain ⟨e', he', hok, hsp⟩ := hnext i d (by omega) (by omega) hd
        obtain ⟨r1, r2, r3, r4⟩ := stepOK_spec hok hf hu
        have hg : goIndex tbl ((i : Int) + 1) = .ok e' := by
          have : ((i : Int) + 1) = ((i + 1 : Nat) : Int) := by omega
          rw [this, goIndex_nat, he']
        rw [hg]
        simp only
        have hgf : goIndex e'.fieldList (k : Int) = .ok e'.fieldList[k] := by
          rw [goIndex_nat, List.getElem?_eq_getElem r4]
        rw [hgf]
        simp only
        obtain ⟨i', d', h, hp⟩ := ih (i := i + 1) (d := e') (field := e'.fieldList[k]) (data := .u64 n) (by omega)
          (fun t e ht1 ht2 he => hnext t e (by omega) (by omega) he) he'
          (List.getElem?_eq_getElem r4) (fun _ => Or.inr ⟨n, rfl⟩)
        refine ⟨i', d', h, ?_⟩
        rcases hp with hp | hp
        · rcases hsp with hsp | ⟨hsp, hnl⟩
          · left; rw [hp, samePos_spec hsp hf hu]
          · right
            have hb := variantLoop_bounds h
            have : i' = j + 1 := by omega
            exact ⟨this, by rw [hb.2.2.1 (by omega)]; exact hnl⟩
        · exact Or.inr hp
    | _ => exact ⟨i, d, rfl, Or.inl rfl⟩

/-! ## The loop -/

/-- What is required of the definitions that parsing may reach, indices `i` to `j + 1`, for the reading to keep to
their fields. -/
structure Orderly (tbl : List Pgn) (i j : Nat) (one : Bool) : Prop where
  good : ∀ d ∈ tbl, noMustInGroup d = true ∧ ∀ f ∈ d.fieldList, f.units ≠ .empty
  plain : ∀ t d, i ≤ t → t ≤ (if one then i else j + 1) → tbl[t]? = some d →
    ∀ f ∈ d.fieldList, plainField f = true
  single : ∀ (t : Nat) (d : Pgn) (k : Nat) (f : Field), i ≤ t → t ≤ (if one then i else j + 1) → tbl[t]? = some d →
    d.fieldList[k]? = some f → f.res = .stringLZ → d.repeatingFields = 0
  next : one = false → ∀ t d, i ≤ t → t ≤ j → tbl[t]? = some d →
    ∃ d', tbl[t + 1]? = some d' ∧ stepOK d d' = true ∧
      (samePos d d' = true ∨ (t = j ∧ noLZ d' = true))

/-- What is required of the definitions that parsing may reach: indices `i` to `hi`. -/
structure SafeDefs (tbl : List Pgn) (m : RawMessage) (i j : Nat) (one : Bool) : Prop where
  orderly : Orderly tbl i j one
  lz : ∀ t d k f, i ≤ t → t ≤ (if one then i else j + 1) → tbl[t]? = some d →
    d.fieldList[k]? = some f → f.res = .stringLZ → lzSafe m.data.vis (position d.fieldList k / 8)

structure SafeInv (tbl : List Pgn) (m : RawMessage) (i j : Nat) (one : Bool) (s : St) : Prop where
  any : AnyInv tbl s
  lo : i ≤ s.i
  hi : s.i ≤ if one then i else j + 1
  bit_ : s.bit < 8
  place : m.data.vis.length ≤ s.sb ∨ s.idx < s.odx ∨
    8 * s.sb + s.bit = position s.d.fieldList s.idx.toNat ∨ (s.i = j + 1 ∧ noLZ s.d = true)

theorem win_facts (len : Nat) (f : Field) (sb : Nat) (h : winBytes len f + sb ≤ len) :
    sb ≤ winBytes len f + sb ∧ winBits len f ≤ 8 * (winBytes len f + sb - sb) := by
  unfold winBits; omega

/-- Reading a field panics only at a length-prefixed string, at the place of the field. -/
theorem orderly_decode {i : Nat} (hS : Orderly tbl i j one) {s : St} (h : SafeInv tbl m i j one s)
    {field : Field} (hidx : s.idx < s.d.fieldList.length)
    (hf : goIndex s.d.fieldList s.idx = .ok field)
    (hw : winBytes m.data.vis.length field + s.sb ≤ m.data.vis.length) :
    (∃ r, decodeField env m s.d s.data field s.sb (winBytes m.data.vis.length field + s.sb) s.bit
      (winBits m.data.vis.length field) = .ok r) ∨
    (field.res = .stringLZ ∧ s.idx = s.odx ∧ 8 * s.sb + s.bit = position s.d.fieldList s.idx.toNat ∧
      ¬ lzSafe m.data.vis s.sb) := by
  obtain ⟨w1, w2⟩ := win_facts _ _ _ hw
  have hfo := goIndex_ok hf
  have hmem := List.mem_of_getElem? hfo.2
  by_cases hlz : field.res = .stringLZ → lzSafe m.data.vis s.sb
  · exact Or.inl (decodeField_safe env m s.d s.data field w1 hw w2
      (hS.plain s.i s.d h.lo h.hi h.any.def_ field hmem) hlz)
  · have hres : field.res = .stringLZ := Classical.byContradiction fun h => hlz (fun h' => absurd h' h)
    have hns : ¬ lzSafe m.data.vis s.sb := fun h => hlz (fun _ => h)
    have hR := hS.single s.i s.d _ field h.lo h.hi h.any.def_ hfo.2 hres
    refine Or.inr ⟨hres, ?_, ?_, hns⟩
    · rcases h.any.track with ⟨t, _⟩ | ⟨t, _, _⟩ <;> omega
    · rcases h.place with hp | hp | hp | hp
      · exfalso; apply hns
        intro l hl'
        rw [List.getElem?_eq_none hp] at hl'; cases hl'
      · exfalso
        rcases h.any.track with ⟨t, _⟩ | ⟨t, _, _⟩ <;> omega
      · exact hp
      · exact absurd hres (noLZ_spec hp.2 hfo.2)

theorem safeInv_decode {i : Nat} (hS : SafeDefs tbl m i j one) {s : St} (h : SafeInv tbl m i j one s)
    {field : Field} (hidx : s.idx < s.d.fieldList.length)
    (hf : goIndex s.d.fieldList s.idx = .ok field)
    (hw : winBytes m.data.vis.length field + s.sb ≤ m.data.vis.length) :
    ∃ r, decodeField env m s.d s.data field s.sb (winBytes m.data.vis.length field + s.sb) s.bit
      (winBits m.data.vis.length field) = .ok r := by
  rcases orderly_decode (env := env) hS.orderly h hidx hf hw with hr | ⟨hres, _, hp, hns⟩
  · exact hr
  · exfalso
    have hb := h.bit_
    have e : s.sb = position s.d.fieldList s.idx.toNat / 8 := by omega
    rw [e] at hns
    exact hns (hS.lz s.i s.d _ field h.lo h.hi h.any.def_ (goIndex_ok hf).2 hres)

theorem safeInv_variant {i : Nat} (hS : Orderly tbl i j one) {s : St} (h : SafeInv tbl m i j one s)
    {field : Field} (hidx : s.idx < s.d.fieldList.length)
    (hf : goIndex s.d.fieldList s.idx = .ok field)
    (hw : winBytes m.data.vis.length field + s.sb ≤ m.data.vis.length) {r : Res? Val}
    (hr : decodeField env m s.d s.data field s.sb (winBytes m.data.vis.length field + s.sb) s.bit
      (winBits m.data.vis.length field) = .ok r) :
    ∃ i' d' index', selectVariant tbl m j one s field (winBytes m.data.vis.length field + s.sb)
        (winBits m.data.vis.length field) r = .ok (i', d', index') ∧
      (position d'.fieldList (s.idx.toNat + 1) = position s.d.fieldList (s.idx.toNat + 1) ∨
        (i' = j + 1 ∧ noLZ d' = true)) := by
  obtain ⟨w1, w2⟩ := win_facts _ _ _ hw
  have hfo := goIndex_ok hf
  unfold selectVariant
  cases r with
  | none => exact ⟨_, _, _, rfl, Or.inl rfl⟩
  | some v =>
    simp only
    cases hone : one with
    | true => exact ⟨_, _, _, rfl, Or.inl rfl⟩
    | false =>
      simp only [Bool.false_eq_true, if_false, bind, Except.bind]
      have hidx' : s.idx = ((s.idx.toNat : Nat) : Int) := by omega
      by_cases hm : ∃ v, field.units = .must v
      · obtain ⟨mv, hm⟩ := hm
        by_cases hfuel : s.i ≤ j
        · obtain ⟨e', _, hok, _⟩ := hS.next hone s.i s.d h.lo hfuel h.any.def_
          obtain ⟨r1, r2, r3, _⟩ := stepOK_spec hok hfo.2 hm
          have h8 : winBytes m.data.vis.length field + s.sb - s.sb ≤ 8 := by unfold winBytes; omega
          obtain ⟨i', d', hv, hp⟩ := variantLoop_safe (tbl := tbl) (m := m) (res := field.res)
            (k := s.idx.toNat) (bit := s.bit) w1 hw w2 h8 (fun d hd => (hS.good d hd).2)
            (fuel := j + 1 - s.i) (i := s.i) (d := s.d) (field := field) (data := v) (j := j) (by omega)
            (fun t e ht1 ht2 he => hS.next hone t e (by have := h.lo; omega) (by omega) he)
            h.any.def_ hfo.2 (by
              intro _
              by_cases hres : field.res = .manufacturer
              · exact Or.inl hres
              · right
                obtain ⟨n, hn⟩ := decodeField_u64 env m s.d s.data field (bit := s.bit) w1 hw h8 w2
                  r1 r2 hres hm
                rw [hr] at hn
                injection hn with hn; injection hn with hn
                exact ⟨n, hn⟩)
          rw [← hidx'] at hv
          rw [hv]
          exact ⟨_, _, _, rfl, hp⟩
        · rw [show j + 1 - s.i = 0 by omega]
          exact ⟨_, _, _, rfl, Or.inl rfl⟩
      · cases hfu : j + 1 - s.i with
        | zero => exact ⟨_, _, _, rfl, Or.inl rfl⟩
        | succ fuel =>
          by_cases hres : field.res = .manufacturer
          · obtain ⟨rn, hn, _⟩ := extractNumber_ok m field (offset := s.bit) w1 hw w2
            unfold variantLoop variantData
            rw [if_pos hres, hn]
            simp only [bind, Except.bind, pure, Except.pure]
            cases hu : field.units with
            | empty => exact absurd hu ((hS.good s.d (List.mem_of_getElem? h.any.def_)).2 field
                (List.mem_of_getElem? hfo.2))
            | must v => exact absurd ⟨v, hu⟩ hm
            | _ => exact ⟨_, _, _, rfl, Or.inl rfl⟩
          · unfold variantLoop variantData
            rw [if_neg hres]
            simp only [bind, Except.bind, pure, Except.pure]
            cases hu : field.units with
            | empty => exact absurd hu ((hS.good s.d (List.mem_of_getElem? h.any.def_)).2 field
                (List.mem_of_getElem? hfo.2))
            | must v => exact absurd ⟨v, hu⟩ hm
            | _ => exact ⟨_, _, _, rfl, Or.inl rfl⟩

theorem safeInv_step {i : Nat} (hij : i ≤ j) (hS : Orderly tbl i j one) {s s' : St}
    (h : SafeInv tbl m i j one s)
    (hs : step tbl env m j one s = .ok (.inl s')) : SafeInv tbl m i j one s' := by
  have hany := anyInv_step (fun d hd => (hS.good d hd).1) h.any hs
  obtain ⟨field, r, i', d', index', hidx, hf, hsb, hw, hr, hv, rfl⟩ := step_inl hs
  obtain ⟨v1, v2, v3, v4, v5, v6⟩ := selectVariant_bounds hv
  obtain ⟨i2, d2, x2, hv2, hpos⟩ := safeInv_variant hS h hidx hf hw hr
  rw [hv] at hv2
  injection hv2 with hv2; injection hv2 with e1 e2; injection e2 with e2 e3
  subst e1 e2 e3
  have hfo := goIndex_ok hf
  have hlo := h.lo
  have hhi := h.hi
  refine ⟨hany, by simp only; omega, ?_, by simp only; omega, ?_⟩
  · simp only
    cases one with
    | true => have := (v5 rfl).1; simp only [if_true] at hhi ⊢; omega
    | false => simp only [Bool.false_eq_true, if_false] at hhi ⊢; omega
  · simp only
    have htr := h.any.track
    rcases h.place with hp | hp | hp | hp
    · left; omega
    · right; left
      have : nextIdx m.data.vis.length d' s.idx
          (s.sb + (winBits m.data.vis.length field + s.bit) / 8) ≤ s.idx + 1 := by
        unfold nextIdx; split <;> omega
      omega
    · by_cases hwrap : s.idx = (d'.fieldList.length : Int) - 1 ∧ 0 < d'.repeatingFields ∧
          s.sb + (winBits m.data.vis.length field + s.bit) / 8 < m.data.vis.length
      · right; left
        unfold nextIdx
        rw [if_pos hwrap]
        rcases htr with ⟨t, _⟩ | ⟨_, t1, t2⟩ <;> omega
      · have hnx : nextIdx m.data.vis.length d' s.idx
            (s.sb + (winBits m.data.vis.length field + s.bit) / 8) = s.idx + 1 := by
          unfold nextIdx; rw [if_neg hwrap]
        rw [hnx]
        have htn : (s.idx + 1).toNat = s.idx.toNat + 1 := by omega
        rcases hpos with hpos | hpos
        case inr => exact Or.inr (Or.inr (Or.inr hpos))
        rw [htn, hpos, position_succ, hfo.2]
        simp only [Option.map_some, Option.getD_some]
        by_cases hfull : byteCount field.size ≤ m.data.vis.length
        · obtain ⟨w1, w2⟩ := winBytes_full hfull
          rw [w2]
          right; right; left; omega
        · left
          have hsb0 : winBytes m.data.vis.length field = m.data.vis.length := by
            unfold winBytes; unfold byteCount at hfull; omega
          have hbits : winBits m.data.vis.length field = 8 * m.data.vis.length := by
            unfold winBits; rw [hsb0]; unfold byteCount at hfull; omega
          rw [hbits]; omega
    · right; right; right
      have e : i' = s.i := by
        by_cases e : i' = s.i
        · exact e
        · have hm : max s.i (j + 1) = s.i := by omega
          omega
      exact ⟨by omega, by rw [v3 e]; exact hp.2⟩

/-- ParsePacket does not panic when the definitions it may reach are safe. -/
theorem safe_general {i : Nat} {d q : Pgn} (hf : first tbl m.pgn = .ok (i, d))
    (hl : last tbl m.pgn = .ok (j, q)) (hij : i ≤ j) (hd : tbl[i]? = some d)
    (hS : SafeDefs tbl m i j (i == j)) (e : Panic) : ¬ ParsePacket tbl env m (.error e) := by
  rw [ParsePacket_iff hf hl]
  rintro ⟨n, hn⟩
  obtain ⟨s', hP, _, herr⟩ := run_inv (SafeInv tbl m i j (i == j))
    (fun s s' hs hst => safeInv_step hij hS.orderly hs hst)
    ⟨⟨rfl, hd, Or.inl ⟨rfl, by simp [initSt]⟩, rfl⟩, Nat.le_refl _,
      by simp only [initSt]; split <;> omega, by simp [initSt], Or.inr (Or.inr (Or.inl rfl))⟩ hn
  obtain ⟨hidx, he | ⟨field, hfi, hsb, hw, he | ⟨r, hr, he⟩⟩⟩ := step_error (herr e rfl)
  · have hg := (hS.orderly.good s'.d (List.mem_of_getElem? hP.any.def_)).1
    simp only [noMustInGroup, Bool.and_eq_true, decide_eq_true_eq] at hg
    have h0 : 0 ≤ s'.idx := by
      rcases hP.any.track with ⟨t, _⟩ | ⟨_, _, t | ⟨_, t, _⟩⟩ <;> omega
    obtain ⟨a, ha, _⟩ := goIndex_of_lt h0 hidx
    rw [he] at ha; cases ha
  · obtain ⟨r, hr⟩ := safeInv_decode (env := env) hS hP hidx hfi hw
    rw [he] at hr; cases hr
  · obtain ⟨i2, d2, x2, hv, _⟩ := safeInv_variant hS.orderly hP hidx hfi hw hr
    rw [he] at hv; cases hv

end Argo.Nmea2k
