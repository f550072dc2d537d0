import Verif.Nmea2k.Names
import Verif.Signalk.Contents

set_option autoImplicit false

/-!
# Which entries of the shipped mapping file have an effect (C102)
-/

namespace Argo.Signalk

open Argo Argo.Signalk.Spec
open Argo.Nmea2k (Val Parsed shippedEnv ParsePacket)

/-! ## Specification -/

/-- What `fmt.Sprintf("%v", ·)` gives for names and numbers. -/
structure Prints (denv : Env Val) : Prop where
  text : ∀ s, denv.sprint (.text s) = bs s
  number : ∀ n : Nat, denv.sprint (.u64 n) = bs (toString n)
  empty : ∀ v, denv.isEmpty v = true → v = .text ""

/-- A group of the mapping file has an effect: there is a message whose decoded form makes Delta report a value
by it, namely the value of the data field `k` it names or, for a fieldset, a text. -/
def Effective (conv : Int → Nat) (pg : Mapping × Group) : Prop :=
  ∃ m p, ParsePacket Nmea2k.Table.pgnList (shippedEnv conv) m (.ok p) ∧ m.pgn = pg.2.pgn ∧
    ∀ denv, Prints denv → ∃ values rpt, shippedReps[p.index]? = some rpt ∧
      delta denv shippedReps MapTable.maps (toMsg p) = .ok (some [⟨m.pgn, m.source, values⟩]) ∧
      if pg.2.fieldset.fields = [] then
        ∃ k v, names pg.2 rpt k ∧ (∀ c ∈ pg.2.conditions, holds denv (toMsg p).data c) ∧
          (toMsg p).data.get k = some v ∧
          (pathFor denv (toMsg p).data rpt k pg.1 pg.2, Value.plain v) ∈ values
      else ∃ t, (dotted pg.1.path, Value.text t) ∈ values

/-! ## The dead entries -/

theorem bs_inj {a b : String} (h : bs a = bs b) : a = b := by
  unfold bs at h
  have h1 : a.toByteArray.data = b.toByteArray.data := Array.toList_inj.mp h
  have h2 : a.toByteArray = b.toByteArray := by
    cases ha : a.toByteArray; cases hb : b.toByteArray
    rw [ha, hb] at h1
    simp only at h1
    rw [h1]
  exact String.toByteArray_inj.mp h2

section
variable {conv : Int → Nat} {m : RawMessage}

theorem company_never (x : Nat) (hx : x = 419 ∨ x = 1855) : (shippedEnv conv).company x ≠ "" := by
  show Nmea2k.nameIn Nmea2k.Lookups.lookupCompanyCode x ≠ ""
  rcases hx with rfl | rfl <;> decide +kernel

theorem nameIn_mem {t : List (Nat × String)} {x : Nat} (h : Nmea2k.nameIn t x ≠ "") : (x, Nmea2k.nameIn t x) ∈ t := by
  unfold Nmea2k.nameIn at h ⊢
  cases hf : t.find? (fun e => decide (e.1 = x)) with
  | none => rw [hf] at h; exact absurd rfl h
  | some e =>
    have h1 := List.mem_of_find?_eq_some hf
    have h2 := List.find?_some hf
    simp only [decide_eq_true_eq] at h2
    simp only [Option.map_some, Option.getD_some]
    rw [← h2]; exact h1

/-- The first field of a 130820 message never prints as 419 or 1855. -/
def Named (denv : Env Val) (v : Option Val) : Prop := denv.text v ≠ bs "419" ∧ denv.text v ≠ bs "1855"

theorem named_none (denv : Env Val) : Named denv none := by
  constructor
  · show bs "<nil>" ≠ _; decide +kernel
  · show bs "<nil>" ≠ _; decide +kernel

theorem manufacturer_named {denv : Env Val} (hp : Prints denv) {f : Nmea2k.Field} {a b c d : Nat} {r : Nmea2k.Res? Val}
    (h : Nmea2k.extractManufacturer (shippedEnv conv) m f a b c d = .ok r) :
    r = none ∨ ∃ v, r = some v ∧ v ≠ .nil ∧ Named denv (some v) := by
  unfold Nmea2k.extractManufacturer at h
  cases hn : Nmea2k.extractNumber m f a b c d with
  | error e => rw [hn] at h; cases h
  | ok o =>
    rw [hn] at h
    simp only [bind, Except.bind] at h
    cases o with
    | none => injection h with h; exact Or.inl h.symm
    | some n =>
      right
      cases n with
      | u64 k =>
        simp only at h
        split at h
        · rename_i hk
          injection h with h
          refine ⟨_, h.symm, by simp, ?_⟩
          constructor
          · intro he
            have he : denv.sprint (.u64 k) = _ := he
            rw [hp.number] at he
            have := bs_inj he
            have : toString (k : Int) = toString ((419 : Nat) : Int) := this
            have := Nmea2k.toString_int_injective this
            exact company_never (conv := conv) k (Or.inl (by omega)) hk
          · intro he
            have he : denv.sprint (.u64 k) = _ := he
            rw [hp.number] at he
            have := bs_inj he
            have : toString (k : Int) = toString ((1855 : Nat) : Int) := this
            have := Nmea2k.toString_int_injective this
            exact company_never (conv := conv) k (Or.inr (by omega)) hk
        · rename_i hk
          injection h with h
          refine ⟨_, h.symm, by simp, ?_⟩
          have hmem := nameIn_mem (t := Nmea2k.Lookups.lookupCompanyCode) (x := k) hk
          constructor
          · intro he
            have he : denv.sprint (.text _) = _ := he
            rw [hp.text] at he
            exact Nmea2k.number_not_name (n := 419) Nmea2k.company_in hmem (bs_inj he)
          · intro he
            have he : denv.sprint (.text _) = _ := he
            rw [hp.text] at he
            exact Nmea2k.number_not_name (n := 1855) Nmea2k.company_in hmem (bs_inj he)
      | _ => cases h

/-- In every decoded 130820 message the first field never prints as 419 or 1855. -/
theorem fusion_named {denv : Env Val} (hp : Prints denv) (hpgn : m.pgn = 130820) {p : Parsed}
    (h : ParsePacket Nmea2k.Table.pgnList (shippedEnv conv) m (.ok p)) :
    p.data.get 0 = .nil ∨ Named denv (some (p.data.get 0)) := by
  have hf : Nmea2k.first Nmea2k.Table.pgnList m.pgn = .ok (202, Nmea2k.Table.p202) := by rw [hpgn]; decide +kernel
  have hl : Nmea2k.last Nmea2k.Table.pgnList m.pgn = .ok (238, Nmea2k.Table.p238) := by rw [hpgn]; decide +kernel
  rw [Nmea2k.ParsePacket_iff hf hl] at h
  obtain ⟨n, hn⟩ := h
  obtain ⟨s, hP, hok, _⟩ := Nmea2k.run_inv (fun s => s.data.map Prod.fst = List.range s.odx ∧
      (s.odx = 0 → s = Nmea2k.initSt 202 Nmea2k.Table.p202) ∧
      (s.data.get 0 = .nil ∨ Named denv (some (s.data.get 0)))) (by
    intro s s' ⟨h1, h2, h3⟩ hs
    obtain ⟨field, r, i', d', index', hidx, hfi, hsb, hw, hr, hv, rfl⟩ := Nmea2k.step_inl hs
    have hnew : s.odx ∉ s.data.map Prod.fst := by rw [h1]; simp
    have hset := Nmea2k.DataMap.set_new (r.getD .nil) hnew
    have hg := Nmea2k.get_append_new h1 (r.getD .nil)
    refine ⟨?_, by intro h; exact absurd h (Nat.succ_ne_zero _), ?_⟩
    · simp only
      rw [hset, List.map_append, h1, List.range_succ]; rfl
    · simp only
      rw [hset]
      by_cases h0 : s.odx = 0
      · have := h2 h0
        subst this
        have hff : field = ⟨"Manufacturer Code", 11, .manufacturer, false, .must 419, "Fusion", "", 0⟩ := by
          have hfi : Nmea2k.goIndex Nmea2k.Table.p202.fieldList 0 = .ok field := hfi
          have h0 : Nmea2k.goIndex Nmea2k.Table.p202.fieldList 0 =
            .ok ⟨"Manufacturer Code", 11, .manufacturer, false, .must 419, "Fusion", "", 0⟩ := rfl
          rw [h0] at hfi
          exact (Except.ok.inj hfi).symm
        subst hff
        rw [show Nmea2k.DataMap.get ((Nmea2k.initSt 202 Nmea2k.Table.p202).data ++ [((Nmea2k.initSt 202 Nmea2k.Table.p202).odx, r.getD .nil)]) 0
          = r.getD .nil from hg.2]
        rcases manufacturer_named hp hr with hr | ⟨v, hr, _, hn⟩
        · rw [hr]; exact Or.inl rfl
        · rw [hr]; exact Or.inr hn
      · rw [hg.1 0 (by omega)]; exact h3)
    (⟨rfl, fun _ => rfl, Or.inl rfl⟩) hn
  obtain ⟨rfl, _⟩ := Nmea2k.step_inr (hok p rfl)
  exact hP.2.2


theorem toMsg_get (p : Parsed) (k : Nat) :
    (toMsg p).data.get k = match p.data.get k with | .nil => none | v => some v := by
  unfold Data.get mapFind Nmea2k.DataMap.get toMsg
  simp only
  generalize p.data = l
  induction l with
  | nil => rfl
  | cons e l ih =>
    rw [List.map_cons]
    by_cases h : e.1 = k
    · rw [List.find?_cons_of_pos (by simpa using h), List.find?_cons_of_pos (by simpa using h)]
      rfl
    · rw [List.find?_cons_of_neg (by simp; omega), List.find?_cons_of_neg (by simpa using h)]
      exact ih

theorem fusion_groups : ∀ mp ∈ MapTable.maps, ∀ g ∈ mp.groups, g.pgn = 130820 →
    ∃ c ∈ g.conditions, c.op = bs "eq" ∧ c.field = 0 ∧ (c.value = bs "419" ∨ c.value = bs "1855") := by
  decide +kernel

/-- **C102** is false of the code: no decoded 130820 message gives any delta, so the two entries of the mapping file
for this PGN (track name and reprogram status) never have an effect. -/
theorem C102_false {denv : Env Val} (hp : Prints denv) (hpgn : m.pgn = 130820) {p : Parsed}
    (h : ParsePacket Nmea2k.Table.pgnList (shippedEnv conv) m (.ok p)) :
    delta denv shippedReps MapTable.maps (toMsg p) = .ok none := by
  obtain ⟨r, hr⟩ := C60_shipped denv h
  rw [hr]
  congr 1
  rw [(C57_update hr).1]
  rw [List.eq_nil_iff_forall_not_mem]
  rintro ⟨path, w⟩ hw
  obtain ⟨_, mp, g, h1, h2, h3, h4, _⟩ := C53_shipped hr (parsed_keys h) hw
  have hg : g.pgn = 130820 := by
    rw [h3, ← hpgn, ← parsed_header h]; rfl
  obtain ⟨c, hc, hop, hfield, hval⟩ := fusion_groups mp h1 g h2 hg
  have := (h4 c hc).1 hop
  have hn : Named denv ((toMsg p).data.get c.field) := by
    rw [hfield, show (0 : Int) = ((0 : Nat) : Int) from rfl, toMsg_get]
    rcases fusion_named hp hpgn h with h0 | h0
    · rw [h0]; exact named_none denv
    · cases hv : p.data.get 0 with
      | nil => exact named_none denv
      | _ => rw [hv] at h0; exact h0
  rcases hval with e | e
  · rw [e] at this; exact hn.1 this
  · rw [e] at this; exact hn.2 this

end

/-! ## The effective entries -/

/-- Printing as in `Prints`, for names and numbers only. -/
def refEnv : Env Val where
  sprint
    | .text s => bs s
    | .u64 n => bs (toString n)
    | _ => []
  isEmpty v := v == .text ""
  asTime _ := none
  render _ := []

/-- No value, a name or a number. -/
def plainB : Option Val → Bool
  | none => true
  | some (.text _) => true
  | some (.u64 _) => true
  | _ => false

theorem text_ref {denv : Env Val} (hp : Prints denv) {o : Option Val} (h : plainB o = true) :
    denv.text o = refEnv.text o := by
  cases o with
  | none => rfl
  | some v =>
    cases v with
    | text s => exact hp.text s
    | u64 n => exact hp.number n
    | _ => cases h

theorem accepted_ref {denv : Env Val} (hp : Prints denv) {data : Data Val} {cs : List Condition}
    (h : ∀ c ∈ cs, plainB (data.get c.field) = true) : accepted denv data cs ↔ accepted refEnv data cs := by
  have : ∀ c ∈ cs.takeWhile (fun c => knownOp c.op), (holds denv data c ↔ holds refEnv data c) := by
    intro c hc
    unfold holds
    simp only [textOf_eq]
    rw [text_ref hp (h c ((List.takeWhile_sublist _).subset hc))]
  constructor
  · intro h1 c hc; exact (this c hc).mp (h1 c hc)
  · intro h1 c hc; exact (this c hc).mpr (h1 c hc)

section
variable {tbl : List Nmea2k.Pgn} {env env' : Nmea2k.Env} {m : RawMessage}

theorem decodeField_congr (hl : env.lookup = env'.lookup) (hc : env.company = env'.company) {d : Nmea2k.Pgn} {dm : Nmea2k.DataMap}
    {f : Nmea2k.Field} (hf : f.res ≠ .lookup2) (a b c e : Nat) :
    Nmea2k.decodeField env m d dm f a b c e = Nmea2k.decodeField env' m d dm f a b c e := by
  unfold Nmea2k.decodeField
  cases h : f.res with
  | lookup2 => exact absurd h hf
  | lookup => simp only [Nmea2k.extractLookupField, hl]
  | manufacturer => simp only [Nmea2k.extractManufacturer, hc]
  | _ => rfl

theorem run_congr (hl : env.lookup = env'.lookup) (hc : env.company = env'.company) {d : Nmea2k.Pgn} {j : Nat}
    (hd : ∀ f ∈ d.fieldList, f.res ≠ .lookup2) (n : Nat) (s : Nmea2k.St) (hs : s.d = d) :
    Nmea2k.run tbl env m j true n s = Nmea2k.run tbl env' m j true n s := by
  induction n generalizing s with
  | zero => rfl
  | succ n ih =>
    have hstep : Nmea2k.step tbl env m j true s = Nmea2k.step tbl env' m j true s := by
      unfold Nmea2k.step
      cases hi : Nmea2k.goIndex s.d.fieldList s.idx with
      | error e => rfl
      | ok f =>
        have hf : f ∈ d.fieldList := by
          rw [hs] at hi
          exact List.mem_of_getElem? (Nmea2k.goIndex_ok hi).2
        simp only [bind, Except.bind, decodeField_congr hl hc (hd f hf)]
    unfold Nmea2k.run
    rw [hstep]
    cases hr : Nmea2k.step tbl env' m j true s with
    | error e => rfl
    | ok x =>
      cases x with
      | inr p => rfl
      | inl s' =>
        simp only
        obtain ⟨field, r, i', d', index', hidx, hfi, hsb, hw, hr', hv, rfl⟩ := Nmea2k.step_inl hr
        obtain ⟨_, _, _, _, v5, _⟩ := Nmea2k.selectVariant_bounds hv
        exact ih _ (by simp only; rw [(v5 rfl).2.1, hs])

end

/-- The decoded form of a message, with a definite conversion. -/
def decoded (m : RawMessage) : Option Parsed :=
  match Nmea2k.parsePacketN Nmea2k.Table.pgnList (shippedEnv (fun _ => 0)) m 64 with
  | some (.ok p) => some p
  | _ => none

/-- The PGN has one definition, and no field of it is a sub-lookup. -/
def simpleB (pgn : Nat) : Bool :=
  match Nmea2k.first Nmea2k.Table.pgnList pgn, Nmea2k.last Nmea2k.Table.pgnList pgn with
  | .ok (i, d), .ok (j, _) => i == j && d.fieldList.all (fun f => f.res != .lookup2)
  | _, _ => false

theorem decoded_spec {conv : Int → Nat} {m : RawMessage} {p : Parsed} (hs : simpleB m.pgn = true)
    (h : decoded m = some p) : ParsePacket Nmea2k.Table.pgnList (shippedEnv conv) m (.ok p) := by
  unfold decoded at h
  split at h
  · rename_i q hq
    injection h with h
    subst h
    refine ⟨64, ?_⟩
    rw [← hq]
    unfold simpleB at hs
    unfold Nmea2k.parsePacketN
    split at hs
    · rename_i i d j q' hf hl
      rw [hf, hl]
      simp only [Bool.and_eq_true, beq_iff_eq] at hs
      obtain ⟨rfl, hd⟩ := hs
      simp only [beq_self_eq_true]
      refine run_congr (env := shippedEnv conv) (env' := shippedEnv (fun _ => 0)) rfl rfl (d := d) ?_ 64 ⟨i, d, 0, 0, 0, 0, i, []⟩ rfl
      intro f hf'
      have := List.all_eq_true.mp hd f hf'
      simpa using this
    · cases hs
  · cases h

instance (env : Env Val) (data : Data Val) (c : Condition) : Decidable (holds env data c) := by
  unfold holds; infer_instance

instance (env : Env Val) (data : Data Val) (cs : List Condition) : Decidable (accepted env data cs) := by
  unfold accepted; infer_instance

/-- The path begins with a character that is not a brace. -/
def goodPath (s : Str) : Bool := match dotted s with | [] => false | c :: _ => c != 123

theorem replaceFirst_head {c : Byte} (hc : c ≠ 123) (i new cs : Str) :
    ∃ cs', replaceFirst (bs "{" ++ i ++ bs "}") new (c :: cs) = c :: cs' := by
  have h : hasPrefix (bs "{" ++ i ++ bs "}") (c :: cs) = false := by
    have : bs "{" = [123] := by decide +kernel
    rw [this]
    simp only [hasPrefix, List.cons_append, List.isPrefixOf]
    have : ((123 : Byte) == c) = false := by simpa using fun h => hc h.symm
    rw [this]; rfl
  unfold replaceFirst
  rw [h]
  exact ⟨_, rfl⟩

theorem pathFor_ne {env : Env Val} {data : Data Val} {rpt : Nat} {k : Int} {mp : Mapping} {g : Group}
    (h : goodPath mp.path = true) : pathFor env data rpt k mp g ≠ [] := by
  unfold goodPath at h
  cases hd : dotted mp.path with
  | nil => rw [hd] at h; cases h
  | cons c cs =>
    rw [hd] at h
    have hc : c ≠ 123 := by simpa using h
    unfold pathFor
    rw [hd]
    simp only
    obtain ⟨cs1, e1⟩ : ∃ cs1, (if hasCls g then replaceFirst (bs "{" ++ g.clsId ++ bs "}")
        (textOf env (data.get (parseInt g.clsField 32).1)) (c :: cs) else c :: cs) = c :: cs1 := by
      split
      · exact replaceFirst_head hc _ _ _
      · exact ⟨_, rfl⟩
    rw [e1]
    split
    · obtain ⟨cs2, e2⟩ := replaceFirst_head hc g.multId (textOf env (data.get (multIndex g rpt k))) cs1
      rw [e2]; simp
    · simp

/-- The data field a group names is reported by it: its conditions hold, its field is present and no pair before
it asks for the same field. -/
def reportsB (pre : List (Mapping × Group)) (pg : Mapping × Group) (p : Parsed) : Bool :=
  let data := (toMsg p).data
  let k := (parseInt pg.2.field 64).1
  let rpt := (shippedReps[p.index]?).getD 0
  decide (names pg.2 rpt k) && pg.2.conditions.all (fun c => plainB (data.get c.field) && decide (holds refEnv data c)) &&
    (data.get k).isSome && goodPath pg.1.path &&
    pre.all (fun q => !(decide (q.2.pgn = pg.2.pgn) && decide (names q.2 rpt k) &&
      !(q.2.conditions.all (fun c => plainB (data.get c.field)) && !decide (accepted refEnv data q.2.conditions))))

theorem mapFind_mem {β : Type} {d : List (Int × β)} {k : Int} {v : β} (h : mapFind d k = some v) : (k, v) ∈ d := by
  unfold mapFind at h
  cases hf : d.find? (fun e => decide (e.1 = k)) with
  | none => rw [hf] at h; cases h
  | some e =>
    rw [hf] at h
    have h1 := List.mem_of_find?_eq_some hf
    have h2 := List.find?_some hf
    simp only [decide_eq_true_eq] at h2
    injection h with h
    rw [← h2, ← h]; exact h1

theorem effective_field {conv : Int → Nat} {pre post : List (Mapping × Group)} {pg : Mapping × Group} {m : RawMessage} {p : Parsed}
    (hpairs : pairs MapTable.maps = pre ++ pg :: post) (hno : pg.2.fieldset.fields = [])
    (hs : simpleB m.pgn = true) (hd : decoded m = some p) (hpgn : m.pgn = pg.2.pgn)
    (hr : reportsB pre pg p = true) : Effective conv pg := by
  have hparse := decoded_spec (conv := conv) hs hd
  have hh := parsed_header hparse
  refine ⟨m, p, hparse, hpgn, fun denv hp => ?_⟩
  obtain ⟨r, hdel⟩ := C60_shipped denv hparse
  obtain ⟨d, hi, _⟩ := Nmea2k.any_result Nmea2k.table_noMustInGroup hparse
  have hrep : shippedReps[p.index]? = some d.repeatingFields := by
    unfold shippedReps; rw [List.getElem?_map, hi]; rfl
  obtain ⟨values, ⟨h1, _, _⟩, h2⟩ := C99_delta hdel (parsed_keys hparse) hrep
  unfold reportsB at hr
  simp only [hrep, Option.getD_some, Bool.and_eq_true, decide_eq_true_eq, List.all_eq_true] at hr
  obtain ⟨⟨⟨⟨r1, r2⟩, r3⟩, r4⟩, r5⟩ := hr
  obtain ⟨v, hv⟩ := Option.isSome_iff_exists.mp r3
  have hold : ∀ c ∈ pg.2.conditions, holds denv (toMsg p).data c := by
    intro c hc
    have := (r2 c hc).2
    unfold holds at this ⊢
    simp only [textOf_eq] at this ⊢
    rw [text_ref hp (r2 c hc).1]; exact this
  have hmem : ((parseInt pg.2.field 64).1, some v) ∈ (toMsg p).data := by
    have : (mapFind (toMsg p).data (parseInt pg.2.field 64).1) = some (some v) := by
      unfold Data.get at hv
      cases hm : mapFind (toMsg p).data (parseInt pg.2.field 64).1 with
      | none => rw [hm] at hv; cases hv
      | some o => rw [hm] at hv; cases o with
        | none => cases hv
        | some w => injection hv with hv; rw [hv]
    exact mapFind_mem this
  have hcon : contribution denv (pairs MapTable.maps) (toMsg p) d.repeatingFields ((parseInt pg.2.field 64).1, some v) =
      some (pathFor denv (toMsg p).data d.repeatingFields (parseInt pg.2.field 64).1 pg.1 pg.2, v) := by
    rw [hpairs]
    have : ∀ pre, (∀ q ∈ pre, ¬ applies denv (toMsg p) d.repeatingFields (parseInt pg.2.field 64).1 q) →
        contribution denv (pre ++ pg :: post) (toMsg p) d.repeatingFields ((parseInt pg.2.field 64).1, some v) =
          contribution denv (pg :: post) (toMsg p) d.repeatingFields ((parseInt pg.2.field 64).1, some v) := by
      intro pre
      induction pre with
      | nil => intro _; rfl
      | cons q pre ih =>
        intro hq
        rw [List.cons_append, contribution_cons_neg (hq q (by simp))]
        exact ih (fun q' hq' => hq q' (by simp [hq']))
    rw [this pre, contribution_cons_pos]
    · simp only [Option.bind_some]
      rw [if_neg (pathFor_ne r4)]
    · refine ⟨?_, r1, fun c hc => hold c ((List.takeWhile_sublist _).subset hc)⟩
      show pg.2.pgn = p.header.pgn
      rw [hh, hpgn]
    · intro q hq ⟨a1, a2, a3⟩
      have := r5 q hq
      have e1 : q.2.pgn = pg.2.pgn := by
        rw [a1, ← hpgn, ← hh]; rfl
      simp only [e1, a2, decide_true, Bool.true_and, Bool.not_eq_true', Bool.not_eq_false'] at this
      simp only [Bool.not_not, Bool.and_eq_true, Bool.not_eq_true', decide_eq_false_iff_not, List.all_eq_true] at this
      exact this.2 ((accepted_ref hp this.1).mp a3)
  have hin : (pathFor denv (toMsg p).data d.repeatingFields (parseInt pg.2.field 64).1 pg.1 pg.2, Value.plain v) ∈ values := by
    have : (pathFor denv (toMsg p).data d.repeatingFields (parseInt pg.2.field 64).1 pg.1 pg.2, v) ∈ plainPart values := by
      rw [h1, List.mem_filterMap]
      exact ⟨_, hmem, hcon⟩
    unfold plainPart at this
    rw [List.mem_filterMap] at this
    obtain ⟨⟨a, w⟩, hw, he⟩ := this
    cases w with
    | text s => cases he
    | plain w =>
      simp only [Option.some.injEq, Prod.mk.injEq] at he
      rw [← he.1, ← he.2]; exact hw
  refine ⟨values, d.repeatingFields, hrep, ?_, ?_⟩
  · rw [hdel, h2, if_neg (fun h => by rw [h] at hin; cases hin)]
    show Except.ok (some [Update.mk p.header.pgn p.header.source values]) = _
    rw [hh]
  · rw [if_pos hno]
    exact ⟨_, v, r1, hold, hv, hin⟩

/-- A message of the PGN for each group. -/
def witness (g : Group) : RawMessage :=
  let magnetic := g.conditions.any (fun c => c.value == bs "Magnetic")
  let data : List Byte :=
    if g.pgn = 130306 then [0, 0, 0, 0, 0, 2, 0, 0]
    else if g.pgn = 129026 then (if magnetic then [0, 1, 0, 0, 0, 0, 0, 0] else List.replicate 8 0)
    else if g.pgn = 127250 then [0, 0, 0, 0, 0, 0, 0, 1]
    else if g.pgn = 129029 then List.replicate 51 0
    else if g.pgn = 127503 then List.replicate 23 0
    else if 262144 ≤ g.pgn then List.replicate 34 0
    else List.replicate 14 0
  ⟨6, g.pgn, 1, 255, 8, ⟨data, []⟩⟩

theorem witnesses : ((List.range (pairs MapTable.maps).length).all fun i =>
    match (pairs MapTable.maps)[i]? with
    | some pg => pg.2.pgn == 130820 || pg.2.fieldset.fields != [] ||
      (simpleB pg.2.pgn && match decoded (witness pg.2) with
        | some p => reportsB ((pairs MapTable.maps).take i) pg p
        | none => false)
    | none => true) = true := by decide +kernel

/-- A system time message. -/
def timeMessage : RawMessage := ⟨3, 126992, 1, 255, 8, ⟨[0, 0xf0, 0, 0x40, 0, 0, 0, 0], []⟩⟩

theorem effective_time (conv : Int → Nat) : Effective conv timePair := by
  have hs : simpleB timeMessage.pgn = true := by decide +kernel
  have hfacts : (match decoded timeMessage with
    | some p => decide (p.data.get 3 ≠ .nil ∧ p.data.get 3 ≠ .text "" ∧ p.data.get 4 ≠ .nil ∧ p.data.get 4 ≠ .text "") &&
        !p.data.isEmpty
    | none => false) = true := by decide +kernel
  cases hd : decoded timeMessage with
  | none => rw [hd] at hfacts; cases hfacts
  | some p =>
    rw [hd] at hfacts
    simp only [Bool.and_eq_true, decide_eq_true_eq, Bool.not_eq_true'] at hfacts
    obtain ⟨⟨f1, f2, f3, f4⟩, f5⟩ := hfacts
    have hparse := decoded_spec (conv := conv) hs hd
    have hh := parsed_header hparse
    refine ⟨timeMessage, p, hparse, by decide +kernel, fun denv hp => ?_⟩
    obtain ⟨r, hdel⟩ := C60_shipped denv hparse
    obtain ⟨d, hi, _⟩ := Nmea2k.any_result Nmea2k.table_noMustInGroup hparse
    have hrep : shippedReps[p.index]? = some d.repeatingFields := by
      unfold shippedReps; rw [List.getElem?_map, hi]; rfl
    obtain ⟨values, ⟨_, h1, _⟩, h2⟩ := C99_delta hdel (parsed_keys hparse) hrep
    have hpgn : (toMsg p).pgn = 126992 := by
      show p.header.pgn = _
      rw [hh]; rfl
    have pres : ∀ k : Nat, p.data.get k ≠ .nil → p.data.get k ≠ .text "" →
        ∃ v, Present denv (toMsg p).data k v := by
      intro k g1 g2
      refine ⟨p.data.get k, ?_, ?_⟩
      · rw [toMsg_get]
        cases h : p.data.get k with
        | nil => exact absurd h g1
        | _ => rfl
      · cases h : denv.isEmpty (p.data.get k) with
        | false => rfl
        | true => exact absurd (hp.empty _ h) g2
    obtain ⟨vd, hvd⟩ := pres 3 f1 f2
    obtain ⟨vt, hvt⟩ := pres 4 f3 f4
    have htext : ∃ t, (bs "system.currentTime", t) ∈ textPart values := by
      rcases h1 hpgn with ⟨_, hno⟩ | ⟨_, _, _, _, h | h⟩
      · exact absurd ⟨vd, vt, hvd, hvt⟩ hno
      · obtain ⟨_, _, t, _, _, ht, _⟩ := h
        exact ⟨t, by rw [ht]; simp⟩
      · refine ⟨[], ?_⟩
        rw [h.2]
        have : (toMsg p).data.length ≠ 0 := by
          show (p.data.map _).length ≠ 0
          rw [List.length_map]
          intro h0
          rw [List.length_eq_zero_iff.mp h0] at f5
          cases f5
        exact List.mem_replicate.mpr ⟨this, rfl⟩
    obtain ⟨t, ht⟩ := htext
    have hin : (bs "system.currentTime", Value.text t) ∈ values := by
      unfold textPart at ht
      rw [List.mem_filterMap] at ht
      obtain ⟨⟨a, w⟩, hw, he⟩ := ht
      cases w with
      | plain w => cases he
      | text w =>
        simp only [Option.some.injEq, Prod.mk.injEq] at he
        rw [← he.1, ← he.2]; exact hw
    refine ⟨values, d.repeatingFields, hrep, ?_, ?_⟩
    · rw [hdel, h2, if_neg (fun h => by rw [h] at hin; cases hin)]
      show Except.ok (some [Update.mk p.header.pgn p.header.source values]) = _
      rw [hh]
    · rw [if_neg (by decide +kernel)]
      exact ⟨t, by
        have : dotted timePair.1.path = bs "system.currentTime" := by decide +kernel
        rw [this]; exact hin⟩

/-- **C102** (all other entries): every other group of the mapping file has an effect. -/
theorem C102_partial (conv : Int → Nat) (pg : Mapping × Group) (h : pg ∈ pairs MapTable.maps) (hne : pg.2.pgn ≠ 130820) :
    Effective conv pg := by
  obtain ⟨i, hi⟩ := List.getElem?_of_mem h
  have hlen := (List.getElem?_eq_some_iff.mp hi).1
  have hw := List.all_eq_true.mp witnesses i (List.mem_range.mpr hlen)
  rw [hi] at hw
  simp only [Bool.or_eq_true, beq_iff_eq, bne_iff_ne, Bool.and_eq_true] at hw
  rcases hw with (hw | hw) | ⟨hw1, hw2⟩
  · exact absurd hw hne
  · have : ∀ pg ∈ pairs MapTable.maps, pg.2.fieldset.fields ≠ [] → pg = timePair := by decide +kernel
    rw [this pg h hw]; exact effective_time conv
  · by_cases hf : pg.2.fieldset.fields = []
    · cases hd : decoded (witness pg.2) with
      | none => rw [hd] at hw2; cases hw2
      | some p =>
        rw [hd] at hw2
        have hsplit : pairs MapTable.maps = (pairs MapTable.maps).take i ++ pg :: (pairs MapTable.maps).drop (i + 1) := by
          rw [(List.getElem?_eq_some_iff.mp hi).2.symm, List.getElem_cons_drop, List.take_append_drop]
        exact effective_field hsplit hf hw1 hd rfl hw2
    · have : ∀ pg ∈ pairs MapTable.maps, pg.2.fieldset.fields ≠ [] → pg = timePair := by decide +kernel
      rw [this pg h hf]; exact effective_time conv

/-- There are 51 groups, two of them for PGN 130820. -/
example : (pairs MapTable.maps).length = 51 ∧
    ((pairs MapTable.maps).filter (fun pg => pg.2.pgn == 130820)).map (fun pg => pg.1.path) =
      [bs "~/entertainment/nowPlaying/trackName", bs "~/vendor/simnet/reprogramStatus"] := by decide +kernel

/-- A Fusion track message is decoded, so `C102_false` is about something: its manufacturer shows as "Fusion". -/
example : ∃ n p, Nmea2k.parsePacketN Nmea2k.Table.pgnList (shippedEnv (fun _ => 0))
    ⟨7, 130820, 10, 255, 12, ⟨[0xA3, 0x99, 5, 0x80, 1, 0, 0, 0, 5, 72, 105, 0], []⟩⟩ n = some (.ok p) ∧
    p.data.get 0 = .text "Fusion" := by
  refine ⟨40, ?_⟩
  cases h : Nmea2k.parsePacketN Nmea2k.Table.pgnList (shippedEnv (fun _ => 0))
    ⟨7, 130820, 10, 255, 12, ⟨[0xA3, 0x99, 5, 0x80, 1, 0, 0, 0, 5, 72, 105, 0], []⟩⟩ 40 with
  | none =>
    have : (Nmea2k.parsePacketN Nmea2k.Table.pgnList (shippedEnv (fun _ => 0))
      ⟨7, 130820, 10, 255, 12, ⟨[0xA3, 0x99, 5, 0x80, 1, 0, 0, 0, 5, 72, 105, 0], []⟩⟩ 40).isSome = true := by decide +kernel
    rw [h] at this; cases this
  | some r =>
    have hx : (match Nmea2k.parsePacketN Nmea2k.Table.pgnList (shippedEnv (fun _ => 0))
      ⟨7, 130820, 10, 255, 12, ⟨[0xA3, 0x99, 5, 0x80, 1, 0, 0, 0, 5, 72, 105, 0], []⟩⟩ 40 with
      | some (.ok p) => decide (p.data.get 0 = .text "Fusion") | _ => false) = true := by decide +kernel
    rw [h] at hx
    cases r with
    | error e => cases hx
    | ok p => exact ⟨p, rfl, of_decide_eq_true hx⟩

end Argo.Signalk
