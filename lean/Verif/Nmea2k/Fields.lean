import Verif.Nmea2k.Parse

set_option autoImplicit false

/-! # ParsePacket decodes each entry at its place (C38, C50), Print (C51) -/

namespace Argo.Nmea2k

open Argo Argo.Nmea2k.Spec

variable {tbl : List Pgn} {env : Env} {m : RawMessage} {j : Nat} {one : Bool}

theorem first_only {id i : Nat} {d : Pgn} (h : onlyDefinition tbl id i d) :
    first tbl id = .ok (i, d) ∧ last tbl id = .ok (i, d) := by
  obtain ⟨h1, h2, h3⟩ := h
  have hne : tbl ≠ [] := by rintro rfl; simp at h1
  have hmem := List.mem_of_getElem? h1
  constructor
  · obtain ⟨i', p, hf, hp, hc⟩ := C33_first tbl id hne
    rcases hc with ⟨hc, _⟩ | ⟨_, hc⟩
    · have := h3 i' p hp hc
      subst this
      rw [h1] at hp; injection hp with hp; subst hp; exact hf
    · exact absurd h2 (hc d hmem)
  · obtain ⟨i', p, hf, hp, hc⟩ := C33_last tbl id hne
    rcases hc with ⟨hc, _⟩ | ⟨_, hc⟩
    · have := h3 i' p hp hc
      subst this
      rw [h1] at hp; injection hp with hp; subst hp; exact hf
    · exact absurd h2 (hc d hmem)

/-! ## Sequence of fields -/

theorem succ_mod {a r : Nat} (hr : 0 < r) :
    (a + 1) % r = if a % r = r - 1 then 0 else a % r + 1 := by
  have hlt := Nat.mod_lt a hr
  have e : a + 1 = r * (a / r) + (a % r + 1) := by
    have := Nat.div_add_mod a r; omega
  rw [e, Nat.mul_add_mod]
  split
  · rename_i h
    have : a % r + 1 = r := by omega
    rw [this, Nat.mod_self]
  · rename_i h
    rw [Nat.mod_eq_of_lt (by omega)]

theorem entryField_lt {n r k : Nat} (hr : 0 < r) (hrn : r ≤ n) : entryField n r k < n := by
  unfold entryField
  split
  · omega
  · have := Nat.mod_lt (k - n) hr; omega

theorem entryField_last {n r k : Nat} (hr : 0 < r) (hrn : r ≤ n) (h : entryField n r k = n - 1) :
    entryField n r (k + 1) = n - r := by
  unfold entryField at h ⊢
  by_cases hk : k < n
  · rw [if_pos (Or.inr hk)] at h
    rw [if_neg (by omega)]
    have : k + 1 - n = 0 := by omega
    rw [this, Nat.zero_mod]; rfl
  · rw [if_neg (by omega)] at h
    rw [if_neg (by omega)]
    have e : k + 1 - n = (k - n) + 1 := by omega
    rw [e, succ_mod hr, if_pos (by omega)]; rfl

theorem entryField_next {n r k : Nat} (hrn : r ≤ n) (h : entryField n r k + 1 < n) :
    entryField n r (k + 1) = entryField n r k + 1 := by
  unfold entryField at h ⊢
  by_cases hr : r = 0
  · rw [if_pos (Or.inl hr)] at h ⊢; rw [if_pos (Or.inl hr)]
  · by_cases hk : k < n
    · rw [if_pos (Or.inr hk)] at h ⊢
      rw [if_pos (Or.inr (by omega))]
    · rw [if_neg (by omega)] at h ⊢
      rw [if_neg (by omega)]
      have e : k + 1 - n = (k - n) + 1 := by omega
      have hlt := Nat.mod_lt (k - n) (show 0 < r by omega)
      rw [e, succ_mod (by omega), if_neg (by omega)]; omega

/-! ## Where the loop is -/

/-- The loop index in relation to the number of entries produced: either no wrap has happened, or
the index is in the repeating group. -/
def Track (n r : Nat) (idx : Int) (odx : Nat) : Prop :=
  (idx = odx ∧ odx ≤ n) ∨
  (0 < r ∧ n ≤ odx ∧ (idx = n ∨ (idx < n ∧ (n : Int) - r ≤ idx ∧ idx = entryField n r odx)))

theorem Track.field {n r : Nat} {idx : Int} {odx : Nat} (h : Track n r idx odx) (hidx : idx < n) :
    idx = entryField n r odx := by
  rcases h with ⟨h1, h2⟩ | ⟨_, _, h1 | ⟨_, _, h1⟩⟩
  · unfold entryField; rw [if_pos (Or.inr (by omega))]; exact h1
  · omega
  · exact h1

theorem Track.next {len : Nat} {d : Pgn} {idx : Int} {odx sb : Nat}
    (hR : d.repeatingFields ≤ d.fieldList.length)
    (h : Track d.fieldList.length d.repeatingFields idx odx) (hidx : idx < d.fieldList.length) :
    Track d.fieldList.length d.repeatingFields (nextIdx len d idx sb) (odx + 1) := by
  have hfield := h.field hidx
  unfold nextIdx
  by_cases hw : idx = (d.fieldList.length : Int) - 1 ∧ 0 < d.repeatingFields ∧ sb < len
  · rw [if_pos hw]
    obtain ⟨h1, h2, _⟩ := hw
    have hl : entryField d.fieldList.length d.repeatingFields odx = d.fieldList.length - 1 := by omega
    have := entryField_last h2 hR hl
    right
    refine ⟨h2, ?_, Or.inr ⟨by omega, by omega, by omega⟩⟩
    rcases h with ⟨h3, _⟩ | ⟨_, h3, _⟩ <;> omega
  · rw [if_neg hw]
    rcases h with ⟨h3, h4⟩ | ⟨h3, h4, h5⟩
    · left; exact ⟨by omega, by omega⟩
    · right
      refine ⟨h3, by omega, ?_⟩
      rcases h5 with h5 | ⟨h5, h6, h7⟩
      · omega
      · by_cases hl : idx + 1 < d.fieldList.length
        · right
          have := entryField_next (n := d.fieldList.length) (r := d.repeatingFields) (k := odx) hR
            (by omega)
          exact ⟨hl, by omega, by omega⟩
        · left; omega

theorem Track.entries {n r : Nat} {idx : Int} {odx : Nat} (h : Track n r idx odx) (hR : r ≤ n) :
    ∀ k, k < odx → entryField n r k < n := by
  intro k hk
  rcases h with ⟨_, h2⟩ | ⟨h1, _, _⟩
  · unfold entryField; rw [if_pos (Or.inr (by omega))]; omega
  · exact entryField_lt h1 hR

/-! ## Reading the data map -/

theorem get_range (v : Nat → Val) (n k : Nat) (h : k < n) :
    DataMap.get ((List.range n).map (fun k => (k, v k))) k = v k := by
  unfold DataMap.get
  have : ((List.range n).map (fun k => (k, v k))).find? (fun e => e.1 = k) = some (k, v k) := by
    rw [List.find?_map]
    have h2 : (List.range n).find? ((fun e : Nat × Val => decide (e.1 = k)) ∘ fun k => (k, v k)) = some k := by
      rw [List.find?_eq_some_iff_getElem]
      refine ⟨by simp, k, by simpa using h, by simp, ?_⟩
      intro j hj
      simp; omega
    rw [h2]; rfl
  rw [this]

/-- A map with keys 0..n-1 in order is determined by its reads. -/
theorem data_eq_range {dm : DataMap} (h : dm.map Prod.fst = List.range dm.length) :
    dm = (List.range dm.length).map (fun k => (k, dm.get k)) := by
  apply List.ext_getElem
  · simp
  · intro k h1 h2
    simp only [List.getElem_map, List.getElem_range]
    have hk : ∀ i (hi : i < dm.length), dm[i].1 = i := by
      intro i hi
      have h3 : (dm.map Prod.fst)[i]? = (List.range dm.length)[i]? := by rw [h]
      rw [List.getElem?_map, List.getElem?_eq_getElem hi, List.getElem?_range hi] at h3
      simpa using h3
    have hget : dm.get k = dm[k].2 := by
      unfold DataMap.get
      have : dm.find? (fun e => e.1 = k) = some dm[k] := by
        rw [List.find?_eq_some_iff_getElem]
        refine ⟨by simpa using hk k h1, k, h1, rfl, ?_⟩
        intro i hi
        have := hk i (by omega)
        simp; omega
      rw [this]
    rw [hget]
    exact Prod.ext (hk k h1) rfl

/-! ## Entries of a PGN with one definition -/

/-- Invariant of a run with one definition `d`: place, and the entries so far with their origin. -/
structure OneInv (env : Env) (m : RawMessage) (i : Nat) (d : Pgn) (s : St) : Prop where
  def_ : s.d = d
  i_ : s.i = i
  index_ : s.index = i
  bit_ : s.bit < 8
  track : Track d.fieldList.length d.repeatingFields s.idx s.odx
  keys : s.data.map Prod.fst = List.range s.odx
  from_ : ∀ k, k < s.odx → ∃ f r dm sb stop bit bits, entryOf d k = some f ∧
    decodeField env m d dm f sb stop bit bits = .ok r ∧ s.data.get k = r.getD .nil

theorem get_append_new {dm : DataMap} {n : Nat} (hk : dm.map Prod.fst = List.range n) (v : Val) :
    (∀ k, k < n → DataMap.get (dm ++ [(n, v)]) k = dm.get k) ∧
    DataMap.get (dm ++ [(n, v)]) n = v := by
  have hmem : ∀ k, k < n → ∃ e ∈ dm, e.1 = k := by
    intro k hlt
    have : k ∈ dm.map Prod.fst := by rw [hk]; simpa using hlt
    simpa using this
  constructor
  · intro k hlt
    unfold DataMap.get
    rw [List.find?_append]
    obtain ⟨e, he, hek⟩ := hmem k hlt
    have : (dm.find? (fun e => e.1 = k)).isSome := by
      rw [List.find?_isSome]; exact ⟨e, he, by simpa using hek⟩
    obtain ⟨x, hx⟩ := Option.isSome_iff_exists.mp this
    rw [hx]; rfl
  · unfold DataMap.get
    rw [List.find?_append]
    have : dm.find? (fun e => e.1 = n) = none := by
      rw [List.find?_eq_none]
      intro e he
      have : e.1 ∈ dm.map Prod.fst := List.mem_map.mpr ⟨e, he, rfl⟩
      rw [hk] at this
      simp at this ⊢; omega
    rw [this]; simp

theorem oneInv_step {i : Nat} {d : Pgn} (hR : d.repeatingFields ≤ d.fieldList.length) {s s' : St}
    (h : OneInv env m i d s) (hs : step tbl env m j true s = .ok (.inl s')) :
    OneInv env m i d s' := by
  obtain ⟨field, r, i', d', index', hidx, hf, hsb, hw, hr, hv, rfl⟩ := step_inl hs
  obtain ⟨_, _, _, _, v5, _⟩ := selectVariant_bounds hv
  obtain ⟨e1, e2, e3⟩ := v5 rfl
  obtain ⟨hd, hi, hix, hb, ht, hk, hfr⟩ := h
  have hsd : s.d = d := hd
  subst hd
  have hnew : s.odx ∉ s.data.map Prod.fst := by rw [hk]; simp
  have hset := DataMap.set_new (r.getD .nil) hnew
  have hg := get_append_new hk (r.getD .nil)
  refine ⟨e2, by simp only; omega, by simp only; omega, by simp only; omega, ?_, ?_, ?_⟩
  · simp only
    rw [e2]
    exact ht.next hR hidx
  · simp only
    rw [hset, List.map_append, hk, List.range_succ]; rfl
  · intro k hlt
    simp only at hlt ⊢
    rw [hset]
    by_cases hkk : k = s.odx
    · subst hkk
      refine ⟨field, r, s.data, _, _, _, _, ?_, hr, hg.2⟩
      have := goIndex_ok hf
      have h2 := ht.field hidx
      have h3 : s.idx.toNat = entryField s.d.fieldList.length s.d.repeatingFields s.odx := by omega
      rw [h3] at this
      exact this.2
    · rw [hg.1 k (by omega)]
      exact hfr k (by omega)

theorem oneInv_init {i : Nat} {d : Pgn} : OneInv env m i d (initSt i d) :=
  ⟨rfl, rfl, rfl, by simp [initSt], Or.inl ⟨rfl, by simp [initSt]⟩, rfl, by intro k h; simp [initSt] at h⟩

/-- For a PGN with one definition: index, and each entry comes from the field of its turn. -/
theorem one_result {i : Nat} {d : Pgn} (ho : onlyDefinition tbl m.pgn i d)
    (hR : d.repeatingFields ≤ d.fieldList.length) {p : Parsed}
    (h : ParsePacket tbl env m (.ok p)) :
    p.index = i ∧ (d.repeatingFields = 0 → p.data.length ≤ d.fieldList.length) ∧
    ∀ k, k < p.data.length → ∃ f r dm sb stop bit bits, entryOf d k = some f ∧
      decodeField env m d dm f sb stop bit bits = .ok r ∧ p.data.get k = r.getD .nil := by
  obtain ⟨hf, hl⟩ := first_only ho
  rw [ParsePacket_iff hf hl] at h
  obtain ⟨n, hn⟩ := h
  rw [show (i == i) = true by simp] at hn
  obtain ⟨s', hP, hok, _⟩ := run_inv (OneInv env m i d) (fun s s' hs hst => oneInv_step hR hs hst)
    oneInv_init hn
  obtain ⟨he, _⟩ := step_inr (hok p rfl)
  subst he
  have hlen : s'.data.length = s'.odx := by
    have := congrArg List.length hP.keys; simpa using this
  refine ⟨hP.index_, ?_, ?_⟩
  · intro h0
    simp only
    rcases hP.track with ⟨_, h⟩ | ⟨h, _, _⟩ <;> omega
  · intro k hk
    simp only at hk ⊢
    exact hP.from_ k (by omega)

/-! ## C50 -/

/-- Invariant of a run on a message at least as long as every single field. -/
structure FullInv (env : Env) (m : RawMessage) (i : Nat) (d : Pgn) (s : St) : Prop where
  def_ : s.d = d
  i_ : s.i = i
  index_ : s.index = i
  bit_ : s.bit < 8
  pos_ : 8 * s.sb + s.bit = entryPos d s.odx
  track : Track d.fieldList.length d.repeatingFields s.idx s.odx
  keys : s.data.map Prod.fst = List.range s.odx
  vals : ∀ k, k < s.odx → ∃ f, entryOf d k = some f ∧
    entryPos d k / 8 + byteCount f.size ≤ m.data.vis.length ∧
    s.data.get k = (fieldValue env m.data.vis f (entryPos d k)).getD .nil
  end_ : s.idx = d.fieldList.length →
    (d.repeatingFields = 0 ∧ s.odx = d.fieldList.length) ∨
    (0 < d.repeatingFields ∧ d.fieldList.length ≤ s.odx ∧ m.data.vis.length ≤ s.sb)

/-- Hypotheses of C50 on the definition and the message. -/
structure Decodable (m : RawMessage) (d : Pgn) : Prop where
  /-- the repeating group lies in the field list -/
  group : d.repeatingFields ≤ d.fieldList.length
  /-- no sub-lookups, no signed lookups -/
  plain : ∀ f ∈ d.fieldList, plainField f = true
  /-- the message is at least as long as each single field -/
  long : ∀ f ∈ d.fieldList, byteCount f.size ≤ m.data.vis.length
  /-- length-prefixed strings do not wrap -/
  lz : ∀ k f, entryOf d k = some f → f.res = .stringLZ → lzSafe m.data.vis (entryPos d k / 8)

theorem winBytes_full {len : Nat} {f : Field} (h : byteCount f.size ≤ len) :
    winBytes len f = byteCount f.size ∧ winBits len f = f.size := by
  unfold winBits winBytes byteCount at *
  constructor <;> omega

theorem fullInv_decode {i : Nat} {d : Pgn} (hD : Decodable m d) {s : St}
    (h : FullInv env m i d s) {field : Field} (hidx : s.idx < s.d.fieldList.length)
    (hf : goIndex s.d.fieldList s.idx = .ok field)
    (hw : winBytes m.data.vis.length field + s.sb ≤ m.data.vis.length) :
    entryOf d s.odx = some field ∧ entryPos d s.odx / 8 + byteCount field.size ≤ m.data.vis.length ∧
    winBytes m.data.vis.length field = byteCount field.size ∧
    winBits m.data.vis.length field = field.size ∧
    decodeField env m s.d s.data field s.sb (winBytes m.data.vis.length field + s.sb) s.bit
      (winBits m.data.vis.length field) = .ok (fieldValue env m.data.vis field (entryPos d s.odx)) := by
  have hd := h.def_
  subst hd
  have hfo := goIndex_ok hf
  have h2 := h.track.field hidx
  have h3 : s.idx.toNat = entryField s.d.fieldList.length s.d.repeatingFields s.odx := by omega
  have hfe : entryOf s.d s.odx = some field := by
    unfold entryOf; rw [← h3]; exact hfo.2
  have hmem := List.mem_of_getElem? hfo.2
  obtain ⟨w1, w2⟩ := winBytes_full (hD.long field hmem)
  have hp := h.pos_
  have hb := h.bit_
  have e1 : s.sb = entryPos s.d s.odx / 8 := by omega
  have e2 : s.bit = entryPos s.d s.odx % 8 := by omega
  refine ⟨hfe, by omega, w1, w2, ?_⟩
  rw [w1, w2, e1, e2]
  exact decodeField_eq env m s.d s.data field _ (by omega) (hD.plain field hmem) (hD.lz _ _ hfe)

theorem fullInv_step {i : Nat} {d : Pgn} (hD : Decodable m d) {s s' : St}
    (h : FullInv env m i d s) (hs : step tbl env m j true s = .ok (.inl s')) :
    FullInv env m i d s' := by
  obtain ⟨field, r, i', d', index', hidx, hf, hsb, hw, hr, hv, rfl⟩ := step_inl hs
  obtain ⟨_, _, _, _, v5, _⟩ := selectVariant_bounds hv
  obtain ⟨e1, e2, e3⟩ := v5 rfl
  obtain ⟨hfe, hfit, w1, w2, hdec⟩ := fullInv_decode hD h hidx hf hw
  rw [hdec] at hr
  injection hr with hr
  obtain ⟨hd, hi, hix, hb, hp, ht, hk, hvals, hend⟩ := h
  subst hd
  have hnew : s.odx ∉ s.data.map Prod.fst := by rw [hk]; simp
  have hset := DataMap.set_new (r.getD .nil) hnew
  have hg := get_append_new hk (r.getD .nil)
  rw [w2]
  refine ⟨e2, by simp only; omega, by simp only; omega, by simp only; omega, ?_, ?_, ?_, ?_, ?_⟩
  · simp only [entryPos, hfe, Option.map_some, Option.getD_some]
    omega
  · simp only
    rw [e2]
    exact ht.next hD.group hidx
  · simp only
    rw [hset, List.map_append, hk, List.range_succ]; rfl
  · intro k hlt
    simp only at hlt ⊢
    rw [hset]
    by_cases hkk : k = s.odx
    · subst hkk
      exact ⟨field, hfe, hfit, by rw [hg.2, ← hr]⟩
    · rw [hg.1 k (by omega)]
      exact hvals k (by omega)
  · simp only
    rw [e2]
    intro hn
    unfold nextIdx at hn
    have hR := hD.group
    split at hn
    · rename_i hc
      omega
    · rename_i hc
      have hidx' : s.idx = (s.d.fieldList.length : Int) - 1 := by omega
      by_cases h0 : s.d.repeatingFields = 0
      · left
        refine ⟨h0, ?_⟩
        rcases ht with ⟨t1, _⟩ | ⟨t1, _⟩ <;> omega
      · right
        refine ⟨by omega, ?_, ?_⟩
        · rcases ht with ⟨t1, _⟩ | ⟨_, t1, _⟩ <;> omega
        · have := not_and.mp (not_and.mp hc hidx') (by omega)
          omega

theorem fullInv_init {i : Nat} {d : Pgn} (hD : Decodable m d) : FullInv env m i d (initSt i d) := by
  refine ⟨rfl, rfl, rfl, by simp [initSt], rfl, Or.inl ⟨rfl, by simp [initSt]⟩, rfl, ?_, ?_⟩
  · intro k h; simp [initSt] at h
  · intro h
    have h : d.fieldList.length = 0 := by simp only [initSt] at h; omega
    by_cases h0 : d.repeatingFields = 0
    · left; exact ⟨h0, by simp [initSt, h]⟩
    · have := hD.group; omega

end Argo.Nmea2k
