import Verif.Nmea2k.Lookups
import Verif.Nmea2k.Safe2
import Verif.Nmea2k.Entries
import Verif.Nmea2k.Import

set_option autoImplicit false

/-!
# Names: the tables of lookups.go (C100) and the address claim (C101)
-/

namespace Argo.Nmea2k

open Argo Argo.Nmea2k.Spec

/-! ## Model -/

/-- Read of a Go map of names: the empty text for an absent key. -/
def nameIn (t : List (Nat × String)) (k : Nat) : String := ((t.find? (fun e => e.1 = k)).map Prod.snd).getD ""

/-- The tables of lookups.go as ParsePacket uses them (raw_message.go:148-157, 499, 524, 541).  Both numbers of
a sub-lookup are products of a bit pattern and `RES_LOOKUP2`, which is -10 (pgn_array.go:49, raw_message.go:459,
473); the first is converted with `uint32(·)`, whose result for negative numbers depends on the implementation
and is the parameter `conv`, the second with `int(·)`. -/
def shippedEnv (conv : Int → Nat) : Env where
  lookup name k := nameIn (((Lookups.tables.find? (fun e => e.1 = name)).map Prod.snd).getD []) k
  company := nameIn Lookups.lookupCompanyCode
  sub name sup k :=
    if name = "lookupDeviceFunction" then
      let row := ((Lookups.lookupDeviceFunction.find? (fun e => e.1 = conv (-10 * sup))).map Prod.snd).getD []
      ((row.find? (fun e => (e.1 : Int) = -10 * (k : Int))).map Prod.snd).getD ""
    else ""

/-! ## The address claim -/

section
variable {env : Env} {m : RawMessage}

/-- The value of field `k` of an address claim. -/
def claimValue (env : Env) (data : List Byte) (k : Nat) : Val :=
  if k = 4 then .text (env.sub "lookupDeviceFunction" (bitsAt data 49 7) (bitsAt data 40 8))
  else ((Table.p3.fieldList[k]?).bind (fun f => fieldValue env data f (position Table.p3.fieldList k))).getD .nil

structure ClaimFull (env : Env) (m : RawMessage) (s : St) : Prop extends Claim s where
  ix : s.index = 3
  pos : 8 * s.sb + s.bit = position Table.p3.fieldList s.odx
  le : s.odx ≤ 10
  vals : ∀ k, k < s.odx → s.data.get k = claimValue env m.data.vis k

theorem function_value (h8 : 8 ≤ m.data.vis.length) {dm : DataMap} (hdm : dm.get 6 = .nil) :
    decodeField env m Table.p3 dm functionField 5 6 0 8 =
      .ok (some (.text (env.sub "lookupDeviceFunction" (bitsAt m.data.vis 49 7) (bitsAt m.data.vis 40 8)))) := by
  have ho : fieldOffsets Table.p3 functionField.offset = .ok (6, 7, 1, 7) := by decide +kernel
  have hsv : (if 0 ≤ functionField.offset then dm.get functionField.offset.toNat else Val.nil) = .nil := by
    rw [if_pos (by decide)]; exact hdm
  have hn : ∀ x, numberValue functionField x = .f64 x .lookup2 := by
    intro x; rfl
  have e1 : extractNumber m functionField 6 7 1 7 = .ok (some (.f64 (bitsAt m.data.vis 49 7) .lookup2)) := by
    rw [extractNumber_eq m functionField (by omega) (by omega) (by omega)]
    rw [if_neg (by omega), hn]; rfl
  have e2 : extractNumber m functionField 5 6 0 8 = .ok (some (.f64 (bitsAt m.data.vis 40 8) .lookup2)) := by
    rw [extractNumber_eq m functionField (by omega) (by omega) (by omega)]
    rw [if_neg (by omega), hn]; rfl
  change extractLookup2 env m Table.p3 dm functionField 5 6 0 8 = _
  unfold extractLookup2
  rw [hsv]
  simp only [ho, bind, Except.bind, e1]
  unfold extractLookupSubfield
  rw [e2]
  rfl

theorem p3_positions : ∀ k ≤ 10, position Table.p3.fieldList k =
    [0, 21, 32, 35, 40, 48, 49, 56, 60, 63, 64][k]! := by decide +kernel

theorem p3_length : Table.p3.fieldList.length = 10 := by decide +kernel

theorem p3_fits : ∀ k < 10, ∀ f, Table.p3.fieldList[k]? = some f →
    position Table.p3.fieldList k / 8 + byteCount f.size ≤ 8 ∧ byteCount f.size ≤ 8 := by
  have : (List.range 10).all (fun k => match Table.p3.fieldList[k]? with
    | some f => decide (position Table.p3.fieldList k / 8 + byteCount f.size ≤ 8 ∧ byteCount f.size ≤ 8)
    | none => false) = true := by decide +kernel
  intro k hk f hf
  have := List.all_eq_true.mp this k (List.mem_range.mpr hk)
  rw [hf] at this
  simpa using this

theorem claimFull_step (h8 : 8 ≤ m.data.vis.length) {s s' : St} (h : ClaimFull env m s)
    (hs : step Table.pgnList env m 3 true s = .ok (.inl s')) : ClaimFull env m s' := by
  obtain ⟨hc, hix, hpos, hle, hvals⟩ := h
  obtain ⟨hc', _⟩ := claim_step hc hs
  obtain ⟨hd, he, hk, hb⟩ := hc
  obtain ⟨field, r, i', d', index', hidx, hfi, hsb, hw, hr, hv, rfl⟩ := step_inl hs
  obtain ⟨_, _, _, _, v5, _⟩ := selectVariant_bounds hv
  obtain ⟨e1, e2, e3⟩ := v5 rfl
  rw [hd] at hfi hr hidx
  have hlt : s.odx < 10 := by rw [p3_length] at hidx; omega
  have hfo := goIndex_ok hfi
  have hodx : s.idx.toNat = s.odx := by omega
  rw [hodx] at hfo
  obtain ⟨f1, f2⟩ := p3_fits s.odx hlt field hfo.2
  obtain ⟨w1, w2⟩ := winBytes_full (len := m.data.vis.length) (f := field) (by omega)
  have esb : s.sb = position Table.p3.fieldList s.odx / 8 := by omega
  have ebit : s.bit = position Table.p3.fieldList s.odx % 8 := by omega
  have hnew : s.odx ∉ s.data.map Prod.fst := by rw [hk]; simp
  have hset := DataMap.set_new (r.getD .nil) hnew
  have hg := get_append_new hk (r.getD .nil)
  have hval : r.getD .nil = claimValue env m.data.vis s.odx := by
    rw [w1, w2, esb, ebit] at hr
    unfold claimValue
    by_cases h4 : s.odx = 4
    · have hff : field = functionField := by
        have := p3_field4
        rw [show s.idx = 4 by omega] at hfi
        rw [this] at hfi
        injection hfi with hfi; exact hfi.symm
      subst hff
      rw [h4, p3_positions 4 (by omega)] at hr
      have := function_value (env := env) h8 (dm := s.data) (get_none hk (by omega))
      change decodeField env m Table.p3 s.data functionField 5 6 0 8 = _ at hr
      rw [this] at hr
      injection hr with hr
      rw [← hr, if_pos h4]; rfl
    · rw [if_neg h4, hfo.2, Option.bind_some]
      obtain ⟨p1, p2⟩ := p3_others (by omega) hfi
      rw [decodeField_eq env m Table.p3 s.data field _ (by omega) p1 (fun h => absurd h p2)] at hr
      injection hr with hr
      rw [hr]
  refine ⟨hc', by simp only; omega, ?_, by simp only; omega, ?_⟩
  · simp only
    rw [position_succ, hfo.2, w2]
    simp only [Option.map_some, Option.getD_some]
    omega
  · intro k hlt'
    simp only at hlt' ⊢
    rw [hset]
    by_cases hkk : k = s.odx
    · subst hkk; rw [hg.2, hval]
    · rw [hg.1 k (by omega)]; exact hvals k (by omega)

/-- Every address claim of eight bytes or more is decoded: the fields have the values of their bits, the device
function is looked up. -/
theorem C101_claim (env : Env) (m : RawMessage) (hp : m.pgn = 60928) (h8 : 8 ≤ m.data.vis.length) :
    ∃ p, ParsePacket Table.pgnList env m (.ok p) ∧ p.header = m ∧ p.index = 3 ∧
      p.data.map Prod.fst = List.range 10 ∧ ∀ k < 10, p.data.get k = claimValue env m.data.vis k := by
  have hf : first Table.pgnList m.pgn = .ok (3, Table.p3) := by rw [hp]; exact first_60928
  have hl : last Table.pgnList m.pgn = .ok (3, Table.p3) := by rw [hp]; exact last_60928
  have hno : ¬ ∃ e, ParsePacket Table.pgnList env m (.error e) := by
    rw [C46_60928 env m hp]; omega
  obtain ⟨r, hr⟩ := C45_general Table.pgnList table_goodRepeat env m
  cases r with
  | error e => exact absurd ⟨e, hr⟩ hno
  | ok p =>
    refine ⟨p, hr, ?_⟩
    rw [ParsePacket_iff hf hl] at hr
    obtain ⟨n, hn⟩ := hr
    obtain ⟨s, hP, hok, _⟩ := run_inv (ClaimFull env m) (fun s s' a b => claimFull_step h8 a b)
      (⟨⟨rfl, rfl, rfl, by simp [initSt]⟩, rfl, rfl, by simp [initSt], by intro k h; simp [initSt] at h⟩) hn
    obtain ⟨rfl, hend⟩ := step_inr (hok p rfl)
    obtain ⟨⟨hd, he, hk, hb⟩, hix, hpos, hle, hvals⟩ := hP
    have h10 : s.odx = 10 := by
      rcases hend with h | ⟨field, hidx, hfi, h⟩
      · rw [hd, p3_length] at h; omega
      · exfalso
        rw [hd] at hfi hidx
        rw [p3_length] at hidx
        have hfo := goIndex_ok hfi
        obtain ⟨f1, f2⟩ := p3_fits s.odx (by omega) field (by rw [show s.odx = s.idx.toNat by omega]; exact hfo.2)
        obtain ⟨w1, w2⟩ := winBytes_full (len := m.data.vis.length) (f := field) (by omega)
        rw [w1] at h
        omega
    refine ⟨rfl, hix, by rw [← h10]; exact hk, ?_⟩
    intro k hk'
    exact hvals k (by omega)

end

/-! ## Specification of names -/

/-- A value shows the number `x` by a table: as its name, or as a number if it has none. -/
def Shows (t : List (Nat × String)) (x : Nat) (v : Val) : Prop :=
  (∀ nm, (x, nm) ∈ t → v = .text nm) ∧ ((∀ nm, (x, nm) ∉ t) → v = .u64 x)

/-! ## Facts about the tables -/

theorem tables_good : ∀ e ∈ Lookups.tables, (e.2.map Prod.fst).Nodup ∧ ∀ x ∈ e.2, x.2 ≠ "" := by decide +kernel

theorem tables_names : (Lookups.tables.map Prod.fst).Nodup := by decide +kernel

theorem company_in : ("lookupCompanyCode", Lookups.lookupCompanyCode) ∈ Lookups.tables := by
  have : Lookups.tables.any (fun e => e == ("lookupCompanyCode", Lookups.lookupCompanyCode)) = true := by
    decide +kernel
  obtain ⟨e, he, h⟩ := List.any_eq_true.mp this
  rw [← beq_iff_eq.mp h]; exact he

theorem find_unique {β : Type} {γ : Type} [DecidableEq β] {l : List (β × γ)} (hnd : (l.map Prod.fst).Nodup) {a : β} {b : γ}
    (h : (a, b) ∈ l) : l.find? (fun e => e.1 = a) = some (a, b) := by
  induction l with
  | nil => cases h
  | cons e l ih =>
    simp only [List.map_cons, List.nodup_cons] at hnd
    rcases List.mem_cons.mp h with rfl | h
    · rw [List.find?_cons_of_pos (by simp)]
    · have : e.1 ≠ a := fun hh => hnd.1 (by rw [hh]; exact List.mem_map.mpr ⟨_, h, rfl⟩)
      rw [List.find?_cons_of_neg (by simpa using this), ih hnd.2 h]

theorem shows_nameIn {e : String × List (Nat × String)} (he : e ∈ Lookups.tables) (x : Nat) :
    Shows e.2 x (if nameIn e.2 x = "" then .u64 x else .text (nameIn e.2 x)) := by
  obtain ⟨h1, h2⟩ := tables_good e he
  constructor
  · intro nm hm
    have : nameIn e.2 x = nm := by
      unfold nameIn; rw [find_unique h1 hm]; rfl
    rw [this, if_neg (h2 _ hm)]
  · intro hno
    have : nameIn e.2 x = "" := by
      unfold nameIn
      rw [List.find?_eq_none.mpr]
      · rfl
      · intro y hy hyx
        simp only [decide_eq_true_eq] at hyx
        exact hno y.2 (by rw [← hyx]; exact hy)
    rw [if_pos this]

theorem env_lookup {conv : Int → Nat} {name : String} {t : List (Nat × String)} (h : (name, t) ∈ Lookups.tables) (x : Nat) :
    (shippedEnv conv).lookup name x = nameIn t x := by
  show nameIn (((Lookups.tables.find? (fun e => e.1 = name)).map Prod.snd).getD []) x = _
  rw [find_unique tables_names h]; rfl

/-- The numbers of all lookup fields are 64 bits or less and unsigned. -/
theorem lookup_fields : ∀ d ∈ Table.pgnList, ∀ f ∈ d.fieldList, (f.res = .lookup ∨ f.res = .manufacturer ∨
    ∃ n, f.units = .lookup n) → byteCount f.size ≤ 8 ∧ f.signed = false := by
  have : Table.pgnList.all (fun d => d.fieldList.all (fun f =>
      !(f.res == .lookup || f.res == .manufacturer || (match f.units with | .lookup _ => true | _ => false)) ||
        (decide (byteCount f.size ≤ 8) && !f.signed))) = true := by decide +kernel
  intro d hd f hf hl
  have h := List.all_eq_true.mp (List.all_eq_true.mp this d hd) f hf
  simp only [Bool.or_eq_true, Bool.and_eq_true, Bool.not_eq_true', decide_eq_true_eq] at h
  rcases h with h | h
  · exfalso
    rw [Bool.or_eq_false_iff, Bool.or_eq_false_iff] at h
    rcases hl with hl | hl | ⟨n, hl⟩
    · rw [hl] at h; exact absurd h.1.1 (by decide)
    · rw [hl] at h; exact absurd h.1.2 (by decide)
    · rw [hl] at h; exact absurd h.2 (by simp)
  · exact h

/-! ## C100 -/

section
variable {conv : Int → Nat} {data : List Byte} {f : Field} {pos : Nat} {t : List (Nat × String)}

theorem value_lookup (hres : f.res = .lookup) {name : String} (hu : f.units = .lookup name)
    (ht : (name, t) ∈ Lookups.tables) (hb : byteCount f.size ≤ 8) (hs : f.signed = false)
    (hst : straddles pos f.size = false) :
    Shows t (bitsAt data pos f.size) ((fieldValue (shippedEnv conv) data f pos).getD .nil) := by
  have hv : fieldValue (shippedEnv conv) data f pos = some (if nameIn t (bitsAt data pos f.size) = "" then
      .u64 (bitsAt data pos f.size) else .text (nameIn t (bitsAt data pos f.size))) := by
    unfold fieldValue
    simp only [hres, hu, if_pos hb, Option.map_some, readable_full hst, env_lookup ht]
    have : numeric f (bitsAt data pos f.size) = .u64 (bitsAt data pos f.size) := by
      unfold numeric; rw [hres, hs]; rfl
    rw [this]
  rw [hv]
  exact shows_nameIn ht _

theorem value_company (hres : f.res = .manufacturer) (hb : byteCount f.size ≤ 8) (hs : f.signed = false)
    (hst : straddles pos f.size = false) :
    Shows Lookups.lookupCompanyCode (bitsAt data pos f.size) ((fieldValue (shippedEnv conv) data f pos).getD .nil) := by
  have hv : fieldValue (shippedEnv conv) data f pos = some (if nameIn Lookups.lookupCompanyCode (bitsAt data pos f.size) = "" then
      .u64 (bitsAt data pos f.size) else .text (nameIn Lookups.lookupCompanyCode (bitsAt data pos f.size))) := by
    unfold fieldValue
    simp only [hres, if_pos hb, Option.map_some, readable_full hst]
    have : numeric f (bitsAt data pos f.size) = .u64 (bitsAt data pos f.size) := by
      unfold numeric; rw [hres, hs]; rfl
    rw [this]; rfl
  rw [hv]
  exact shows_nameIn company_in _

theorem value_unnamed (hres : f.res = .one) (hb : byteCount f.size ≤ 8) (hs : f.signed = false)
    (hst : straddles pos f.size = false) :
    (fieldValue (shippedEnv conv) data f pos).getD .nil = .u64 (bitsAt data pos f.size) := by
  unfold fieldValue
  simp only [hres, if_pos hb, readable_full hst, Option.getD_some]
  unfold numeric; rw [hres, hs]; rfl

end

section
variable {conv : Int → Nat} {m : RawMessage}

/-- **C100** (named fields): in every message of a PGN with one definition, each field that looks its number up
shows it by its table; each manufacturer field by the table of companies. -/
theorem C100_partial {i : Nat} {d : Pgn} (ho : onlyDefinition Table.pgnList m.pgn i d) (hD : Decodable m d)
    {r : GoM Parsed} (h : ParsePacket Table.pgnList (shippedEnv conv) m r) :
    ∃ p, r = .ok p ∧ ∀ k f, k < p.data.length → entryOf d k = some f → straddles (entryPos d k) f.size = false →
      (∀ name t, f.res = .lookup → f.units = .lookup name → (name, t) ∈ Lookups.tables →
        Shows t (bitsAt m.data.vis (entryPos d k) f.size) (p.data.get k)) ∧
      (f.res = .manufacturer →
        Shows Lookups.lookupCompanyCode (bitsAt m.data.vis (entryPos d k) f.size) (p.data.get k)) ∧
      (f.res = .one → f.signed = false → byteCount f.size ≤ 8 →
        p.data.get k = .u64 (bitsAt m.data.vis (entryPos d k) f.size)) := by
  obtain ⟨p, rfl, _, _, h3, _⟩ := C50_entries ho hD h
  refine ⟨p, rfl, fun k f hk hf hst => ?_⟩
  obtain ⟨f', hf', _, hv⟩ := h3 k hk
  have hff : f' = f := by rw [hf] at hf'; injection hf' with e; exact e.symm
  subst hff
  have hmem : f' ∈ d.fieldList := by
    unfold entryOf at hf; exact List.mem_of_getElem? hf
  have hd : d ∈ Table.pgnList := List.mem_of_getElem? ho.1
  have hlf := lookup_fields d hd f' hmem
  rw [hv]
  refine ⟨fun name t h1 h2 h3 => ?_, fun h1 => ?_, fun h1 h2 h3 => ?_⟩
  · obtain ⟨a, b⟩ := hlf (Or.inl h1)
    exact value_lookup h1 h2 h3 a b hst
  · obtain ⟨a, b⟩ := hlf (Or.inr (Or.inl h1))
    exact value_company h1 a b hst
  · exact value_unnamed h1 h3 h2 hst

/-- The fields that have a table of names but do not use it: index of the definition, PGN, number of the field. -/
def forgotten : List (Nat × Nat × Nat) :=
  [(35, 65240, 1), (54, 126208, 2), (74, 126983, 0), (74, 126983, 1), (74, 126983, 9), (74, 126983, 10),
    (74, 126983, 11), (74, 126983, 12), (74, 126983, 13), (74, 126983, 14), (74, 126983, 17), (74, 126983, 18),
    (74, 126983, 20), (75, 127237, 4), (75, 127237, 5), (75, 127237, 6), (75, 127237, 8), (76, 127245, 1),
    (113, 129040, 23)]

/-- A field has a table of names. -/
def hasTable (f : Field) : Bool := match f.units with | .lookup _ => true | _ => false

/-- **C100** (which fields): every field with a table looks its number up or is a manufacturer, except the 19
`forgotten` ones; these are shown as plain numbers (`C100_partial`, last part). -/
theorem C100_fields (i k : Nat) (d : Pgn) (f : Field) (hd : Table.pgnList[i]? = some d) (hf : d.fieldList[k]? = some f)
    (ht : hasTable f = true) :
    (f.res = .lookup ∨ f.res = .manufacturer) ∨
      ((i, d.pgn, k) ∈ forgotten ∧ f.res = .one ∧ f.signed = false ∧ byteCount f.size ≤ 8) := by
  have hall : Table.pgnList.zipIdx.all (fun e => e.1.fieldList.zipIdx.all (fun g => !hasTable g.1 ||
      (g.1.res == .lookup || g.1.res == .manufacturer ||
        (forgotten.contains (e.2, e.1.pgn, g.2) && g.1.res == .one && !g.1.signed && decide (byteCount g.1.size ≤ 8)))))
        = true := by decide +kernel
  have h := List.all_eq_true.mp (List.all_eq_true.mp hall (d, i) (List.mem_zipIdx_iff_getElem?.mpr hd)) (f, k)
    (List.mem_zipIdx_iff_getElem?.mpr hf)
  simp only [ht, Bool.not_true, Bool.false_or, Bool.or_eq_true, Bool.and_eq_true, beq_iff_eq,
    Bool.not_eq_true', decide_eq_true_eq, List.contains_iff_mem] at h
  rcases h with (h | h) | ⟨⟨⟨h1, h2⟩, h3⟩, h4⟩
  · exact Or.inl (Or.inl h)
  · exact Or.inl (Or.inr h)
  · exact Or.inr ⟨h1, h2, h3, h4⟩

/-- Every table a field refers to exists, and all its numbers fit in the field. -/
theorem C100_fits {d : Pgn} (hd : d ∈ Table.pgnList) {f : Field} (hf : f ∈ d.fieldList) {name : String}
    (hu : f.units = .lookup name) : ∃ t, (name, t) ∈ Lookups.tables ∧ ∀ e ∈ t, e.1 < 2 ^ f.size := by
  have hall : Table.pgnList.all (fun d => d.fieldList.all (fun f => match f.units with
      | .lookup name => Lookups.tables.any (fun e => e.1 == name && e.2.all (fun x => decide (x.1 < 2 ^ f.size)))
      | _ => true)) = true := by decide +kernel
  have h := List.all_eq_true.mp (List.all_eq_true.mp hall d hd) f hf
  simp only [hu] at h
  obtain ⟨e, he, h'⟩ := List.any_eq_true.mp h
  rw [Bool.and_eq_true] at h'
  obtain ⟨h1, h2⟩ := h'
  refine ⟨e.2, by rw [← beq_iff_eq.mp h1]; exact he, fun x hx => ?_⟩
  have := List.all_eq_true.mp h2 x hx
  exact of_decide_eq_true this

/-- **C100** is false of the code: a Rudder message (PGN 127245) ordering a move to starboard shows the direction
as the number 1. -/
theorem C100_false : (1, "Move to starboard") ∈ Lookups.lookupCommandedRudderDirection ∧
    (∃ f, Table.p76.fieldList[1]? = some f ∧ f.units = .lookup "lookupCommandedRudderDirection") ∧
    ∀ conv, ∃ p, ParsePacket Table.pgnList (shippedEnv conv) ⟨2, 127245, 1, 255, 8, ⟨[0, 1, 0, 0, 0, 0, 0, 0], []⟩⟩ (.ok p) ∧
      p.data.get 1 = .u64 1 := by
  refine ⟨by decide +kernel, ⟨_, rfl, rfl⟩, fun conv => ?_⟩
  obtain ⟨p, h1, _, _, _, h5⟩ := C50_shipped (shippedEnv conv) ⟨2, 127245, 1, 255, 8, ⟨[0, 1, 0, 0, 0, 0, 0, 0], []⟩⟩
    rudder_only (by decide) rfl
    (by
      intro k f hf hr
      exact absurd hr (noLZ_spec (d := Table.p76) (by decide +kernel) hf))
    (by decide +kernel)
  refine ⟨p, h1, ?_⟩
  rw [h5 1 _ rfl, show position Table.p76.fieldList 1 = 8 by decide +kernel]
  exact value_unnamed rfl (by decide) rfl (by decide)

/-! ### Names determine numbers -/

/-- How names and numbers appear in a delta or on paper. -/
def shown : Val → String
  | .text s => s
  | .u64 n => toString n
  | _ => ""

/-- The tables in which one name stands for several numbers. -/
def ambiguous : List String :=
  ["lookupActisenseUARTBaudCode", "lookupAlertType", "lookupGnssMode", "lookupDGnssMode", "lookupCompanyCode"]

theorem names_not_numbers : ∀ e ∈ Lookups.tables, ∀ x ∈ e.2, x.2.toList.any (fun c => !c.isDigit) = true := by
  decide +kernel

theorem names_distinct : ∀ e ∈ Lookups.tables, e.1 ∉ ambiguous → (e.2.map Prod.snd).Nodup := by decide +kernel

theorem number_not_name {e : String × List (Nat × String)} (he : e ∈ Lookups.tables) {x n : Nat}
    {nm : String} (hm : (x, nm) ∈ e.2) : nm ≠ toString n := by
  intro h
  have h1 := names_not_numbers e he _ hm
  obtain ⟨c, hc, hd⟩ := List.any_eq_true.mp h1
  simp only at hc
  rw [h] at hc
  have : (toString n).toList = Nat.toDigits 10 n := Nat.toList_repr
  rw [this] at hc
  have := Nat.isDigit_of_mem_toDigits (by omega) (by omega) hc
  rw [this] at hd; cases hd

/-- **C100** (names determine numbers): except for five tables, two numbers shown by the same table in the same
way are the same; a name is never mistaken for a number. -/
theorem C100_recover {e : String × List (Nat × String)} (he : e ∈ Lookups.tables) (ha : e.1 ∉ ambiguous) {x y : Nat}
    {v w : Val} (hv : Shows e.2 x v) (hw : Shows e.2 y w) (h : shown v = shown w) : x = y := by
  have hx : (∃ nm, (x, nm) ∈ e.2) ∨ ∀ nm, (x, nm) ∉ e.2 := by
    by_cases h : ∃ nm, (x, nm) ∈ e.2
    · exact Or.inl h
    · exact Or.inr (fun nm hm => h ⟨nm, hm⟩)
  have hy : (∃ nm, (y, nm) ∈ e.2) ∨ ∀ nm, (y, nm) ∉ e.2 := by
    by_cases h : ∃ nm, (y, nm) ∈ e.2
    · exact Or.inl h
    · exact Or.inr (fun nm hm => h ⟨nm, hm⟩)
  rcases hx with ⟨a, hx⟩ | hx <;> rcases hy with ⟨b, hy⟩ | hy
  · rw [hv.1 a hx, hw.1 b hy] at h
    have hab : a = b := h
    subst hab
    have hnd := names_distinct e he ha
    have : ∀ {l : List (Nat × String)}, (l.map Prod.snd).Nodup → (x, a) ∈ l → (y, a) ∈ l → x = y := by
      intro l
      induction l with
      | nil => intro _ h; cases h
      | cons z l ih =>
        intro hn h1 h2
        simp only [List.map_cons, List.nodup_cons] at hn
        rcases List.mem_cons.mp h1 with h1 | h1 <;> rcases List.mem_cons.mp h2 with h2 | h2
        · rw [← h2] at h1; injection h1
        · exact absurd (List.mem_map.mpr ⟨_, h2, by rw [← h1]⟩) hn.1
        · exact absurd (List.mem_map.mpr ⟨_, h1, by rw [← h2]⟩) hn.1
        · exact ih hn.2 h1 h2
    exact this hnd hx hy
  · rw [hv.1 a hx, hw.2 hy] at h
    exact absurd h (number_not_name he hx)
  · rw [hv.2 hx, hw.1 b hy] at h
    exact absurd h.symm (number_not_name he hy)
  · rw [hv.2 hx, hw.2 hy] at h
    have h : toString x = toString y := h
    have : toString (x : Int) = toString (y : Int) := h
    exact_mod_cast toString_int_injective this

/-- In the five tables names do not determine numbers. -/
theorem C100_ambiguous_false : ∀ name ∈ ambiguous, ∃ t x y nm, (name, t) ∈ Lookups.tables ∧ x ≠ y ∧
    (x, nm) ∈ t ∧ (y, nm) ∈ t := by
  intro name hn
  simp only [ambiguous, List.mem_cons, List.not_mem_nil, or_false] at hn
  have tab : ∀ {n : String} {t : List (Nat × String)}, Lookups.tables.any (fun e => e == (n, t)) = true →
      (n, t) ∈ Lookups.tables := by
    intro n t h
    obtain ⟨e, he, h⟩ := List.any_eq_true.mp h
    rw [← beq_iff_eq.mp h]; exact he
  rcases hn with rfl | rfl | rfl | rfl | rfl
  · exact ⟨Lookups.lookupActisenseUARTBaudCode, 18, 19, "1,000,000", tab (by decide +kernel), by decide, by decide +kernel, by decide +kernel⟩
  · exact ⟨Lookups.lookupAlertType, 0, 3, "Reserved", tab (by decide +kernel), by decide, by decide +kernel, by decide +kernel⟩
  · exact ⟨Lookups.lookupGnssMode, 4, 5, "Reserved", tab (by decide +kernel), by decide, by decide +kernel, by decide +kernel⟩
  · exact ⟨Lookups.lookupDGnssMode, 1, 3, "SBAS", tab (by decide +kernel), by decide, by decide +kernel, by decide +kernel⟩
  · exact ⟨Lookups.lookupCompanyCode, 116, 295, "BEP Marine", company_in, by decide, by decide +kernel, by decide +kernel⟩

end

/-! ## C101: the address claim -/

section
variable {conv : Int → Nat}

/-- Zero is the only number in a row of the table of functions that is not positive, and only row 0 has it. -/
theorem function_rows : ∀ e ∈ Lookups.lookupDeviceFunction, ∀ x ∈ e.2, x.1 = 0 → e.1 = 0 ∧ x.2 = "Reserved for NMEA 2000 Use" := by
  decide +kernel

/-- The sub-lookup of device functions. -/
theorem sub_eq (a b : Nat) : (shippedEnv conv).sub "lookupDeviceFunction" a b =
    ((((((Lookups.lookupDeviceFunction.find? (fun e => e.1 = conv (-10 * a))).map Prod.snd).getD []).find?
      (fun e => (e.1 : Int) = -10 * (b : Int))).map Prod.snd).getD "") := by
  simp only [shippedEnv, if_true]

theorem sub_zero (h0 : conv 0 = 0) :
    (shippedEnv conv).sub "lookupDeviceFunction" 0 0 = "Reserved for NMEA 2000 Use" := by
  rw [sub_eq, show (-10 * ((0 : Nat) : Int)) = 0 from rfl, h0]
  decide +kernel

theorem sub_nonzero (a : Nat) {b : Nat} (hb : b ≠ 0) : (shippedEnv conv).sub "lookupDeviceFunction" a b = "" := by
  rw [sub_eq, List.find?_eq_none.mpr]
  · rfl
  · intro e _ h
    simp only [decide_eq_true_eq] at h
    omega

/-- **C101** is false of the code: whatever name the tables have for the class and function of a device, if the
function is not 0, the claim shows the empty text. -/
theorem C101_false {m : RawMessage} (hp : m.pgn = 60928) (h8 : 8 ≤ m.data.vis.length)
    (hf : bitsAt m.data.vis 40 8 ≠ 0) :
    ∃ p, ParsePacket Table.pgnList (shippedEnv conv) m (.ok p) ∧ p.data.get 4 = .text "" := by
  obtain ⟨p, h1, _, _, _, h5⟩ := C101_claim (shippedEnv conv) m hp h8
  refine ⟨p, h1, ?_⟩
  rw [h5 4 (by omega)]
  unfold claimValue
  rw [if_pos rfl, sub_nonzero _ hf]

/-- All functions that have a name, except one, have a number other than 0: none of these names is ever shown. -/
theorem C101_false_names : ∀ e ∈ Lookups.lookupDeviceFunction, ∀ x ∈ e.2, x.2 ≠ "" ∧
    (x.1 ≠ 0 ∨ (e.1, x) = (0, (0, "Reserved for NMEA 2000 Use"))) := by decide +kernel

/-- **C101** (the other fields): every address claim of eight bytes or more is decoded: manufacturer, device class
and industry by their tables, instances and the rest as numbers. -/
theorem C101_partial {m : RawMessage} (hp : m.pgn = 60928) (h8 : 8 ≤ m.data.vis.length) (h0 : conv 0 = 0) :
    ∃ p, ParsePacket Table.pgnList (shippedEnv conv) m (.ok p) ∧ p.header = m ∧ p.index = 3 ∧
      p.data.map Prod.fst = List.range 10 ∧
      p.data.get 0 = .bytes (bytesAt m.data.vis 0 3) ∧
      Shows Lookups.lookupCompanyCode (bitsAt m.data.vis 21 11) (p.data.get 1) ∧
      p.data.get 2 = .u64 (bitsAt m.data.vis 32 3) ∧
      p.data.get 3 = .u64 (bitsAt m.data.vis 35 5) ∧
      (bitsAt m.data.vis 40 8 = 0 → bitsAt m.data.vis 49 7 = 0 → p.data.get 4 = .text "Reserved for NMEA 2000 Use") ∧
      p.data.get 5 = .u64 (bitsAt m.data.vis 48 1) ∧
      Shows Lookups.lookupDeviceClass (bitsAt m.data.vis 49 7) (p.data.get 6) ∧
      p.data.get 7 = .u64 (bitsAt m.data.vis 56 4) ∧
      Shows Lookups.lookupIndustryCode (bitsAt m.data.vis 60 3) (p.data.get 8) ∧
      p.data.get 9 = .u64 (bitsAt m.data.vis 63 1) := by
  obtain ⟨p, h1, h2, h3, h4, h5⟩ := C101_claim (shippedEnv conv) m hp h8
  have hv : ∀ k, k < 10 → k ≠ 4 → ∀ f, Table.p3.fieldList[k]? = some f →
      p.data.get k = (fieldValue (shippedEnv conv) m.data.vis f (position Table.p3.fieldList k)).getD .nil := by
    intro k hk h4 f hf
    rw [h5 k hk]
    unfold claimValue
    rw [if_neg h4, hf]; rfl
  have tab : ∀ {n : String} {t : List (Nat × String)}, Lookups.tables.any (fun e => e == (n, t)) = true →
      (n, t) ∈ Lookups.tables := by
    intro n t h
    obtain ⟨e, he, h⟩ := List.any_eq_true.mp h
    rw [← beq_iff_eq.mp h]; exact he
  refine ⟨p, h1, h2, h3, h4, ?_, ?_, ?_, ?_, ?_, ?_, ?_, ?_, ?_, ?_⟩
  · rw [hv 0 (by omega) (by omega) _ rfl]; rfl
  · rw [hv 1 (by omega) (by omega) ⟨"Manufacturer Code", 11, .manufacturer, false, .nil, "", "", 0⟩ rfl,
      show position Table.p3.fieldList 1 = 21 by decide +kernel]
    exact value_company (conv := conv) (data := m.data.vis) (f := ⟨"Manufacturer Code", 11, .manufacturer, false, .nil, "", "", 0⟩) (pos := 21) rfl (by decide) rfl (by decide)
  · rw [hv 2 (by omega) (by omega) ⟨"Device Instance Lower", 3, .one, false, .nil, "ISO ECU Instance", "", 0⟩ rfl,
      show position Table.p3.fieldList 2 = 32 by decide +kernel]
    exact value_unnamed (conv := conv) (data := m.data.vis) (f := ⟨"Device Instance Lower", 3, .one, false, .nil, "ISO ECU Instance", "", 0⟩) (pos := 32) rfl (by decide) rfl (by decide)
  · rw [hv 3 (by omega) (by omega) ⟨"Device Instance Upper", 5, .one, false, .nil, "ISO Function Instance", "", 0⟩ rfl,
      show position Table.p3.fieldList 3 = 35 by decide +kernel]
    exact value_unnamed (conv := conv) (data := m.data.vis) (f := ⟨"Device Instance Upper", 5, .one, false, .nil, "ISO Function Instance", "", 0⟩) (pos := 35) rfl (by decide) rfl (by decide)
  · intro e1 e2
    rw [h5 4 (by omega)]
    unfold claimValue
    rw [if_pos rfl, e1, e2, sub_zero h0]
  · rw [hv 5 (by omega) (by omega) ⟨"Reserved", 1, .one, false, .nil, "Alignment padding", "", 0⟩ rfl,
      show position Table.p3.fieldList 5 = 48 by decide +kernel]
    exact value_unnamed (conv := conv) (data := m.data.vis) (f := ⟨"Reserved", 1, .one, false, .nil, "Alignment padding", "", 0⟩) (pos := 48) rfl (by decide) rfl (by decide)
  · rw [hv 6 (by omega) (by omega) ⟨"Device Class", 7, .lookup, false, (.lookup "lookupDeviceClass"), "", "", 0⟩ rfl,
      show position Table.p3.fieldList 6 = 49 by decide +kernel]
    exact value_lookup (conv := conv) (data := m.data.vis) (f := ⟨"Device Class", 7, .lookup, false, (.lookup "lookupDeviceClass"), "", "", 0⟩) (pos := 49) rfl rfl (tab (by decide +kernel)) (by decide) rfl (by decide)
  · rw [hv 7 (by omega) (by omega) ⟨"System Instance", 4, .one, false, .nil, "ISO Device Class Instance", "", 0⟩ rfl,
      show position Table.p3.fieldList 7 = 56 by decide +kernel]
    exact value_unnamed (conv := conv) (data := m.data.vis) (f := ⟨"System Instance", 4, .one, false, .nil, "ISO Device Class Instance", "", 0⟩) (pos := 56) rfl (by decide) rfl (by decide)
  · rw [hv 8 (by omega) (by omega) ⟨"Industry Code", 3, .lookup, false, (.lookup "lookupIndustryCode"), "", "", 0⟩ rfl,
      show position Table.p3.fieldList 8 = 60 by decide +kernel]
    exact value_lookup (conv := conv) (data := m.data.vis) (f := ⟨"Industry Code", 3, .lookup, false, (.lookup "lookupIndustryCode"), "", "", 0⟩) (pos := 60) rfl rfl (tab (by decide +kernel)) (by decide) rfl (by decide)
  · rw [hv 9 (by omega) (by omega) ⟨"Arbitrary Address Capable", 1, .one, false, .nil, "ISO Self Configurable", "", 0⟩ rfl,
      show position Table.p3.fieldList 9 = 63 by decide +kernel]
    exact value_unnamed (conv := conv) (data := m.data.vis) (f := ⟨"Arbitrary Address Capable", 1, .one, false, .nil, "ISO Self Configurable", "", 0⟩) (pos := 63) rfl (by decide) rfl (by decide)

/-- The claim of a Simrad (1857) navigation device (class 60, function 190, "Navigation Management"). -/
def navClaim : RawMessage := ⟨6, 60928, 3, 255, 8, ⟨[1, 0, 0x20, 0xe8, 0, 190, 120, 0xc0], []⟩⟩

example : bitsAt navClaim.data.vis 21 11 = 1857 ∧ bitsAt navClaim.data.vis 40 8 = 190 ∧ bitsAt navClaim.data.vis 49 7 = 60 ∧
    (Lookups.lookupDeviceFunction.any fun e => e.1 == 60 && e.2.contains (190, "Navigation Management")) = true := by
  decide +kernel

example (conv : Int → Nat) (h0 : conv 0 = 0) : ∃ p, ParsePacket Table.pgnList (shippedEnv conv) navClaim (.ok p) ∧
    p.data.get 4 = .text "" ∧ p.data.get 1 = .text "Simrad" ∧ p.data.get 6 = .text "Navigation" := by
  obtain ⟨p, h1, h2⟩ := C101_false (conv := conv) (m := navClaim) rfl (by decide) (by decide)
  obtain ⟨q, k1, _, _, _, _, k2, _, _, _, _, k3, _⟩ := C101_partial (conv := conv) (m := navClaim) rfl (by decide) h0
  have := ParsePacket_det h1 k1
  injection this with this
  subst this
  exact ⟨p, h1, h2, k2.1 _ (by decide +kernel), k3.1 _ (by decide +kernel)⟩

end

end Argo.Nmea2k
