import Verif.Main.AnyInput
import Verif.Signalk.Contents

set_option autoImplicit false

/-!
# What exactly clients receive (C99)

C93 says of which messages clients receive the deltas; here the contents of these deltas are given without
reference to the model of `Delta`.
-/

namespace Argo.Main

open Argo
open Argo.Nmea2k (Parsed Val DataMap)
open Argo.Nmea2k.Table (pgnList)
open Argo.Signalk (MapTable.maps shippedReps Str Value)
open Argo.Signalk.Spec (pairs dotted)

/-! ## Specification -/

/-- The values the shipped mapping file reports of a message, its data taken in some order. -/
def Reports (denv : Signalk.Env Val) (p : Parsed) (values : List (Str × Value Val)) : Prop :=
  ∃ d order, pgnList[p.index]? = some d ∧ order.Perm p.data ∧
    Signalk.Reported denv d.repeatingFields (Signalk.toMsg { p with data := order }) values

/-- The delta messages made of parsed messages, in order: one for each of which the mapping file reports
something, unless it cannot be encoded; it holds the PGN, the source and the values. -/
inductive Broadcasts {β : Type} (denv : Signalk.Env Val) (marshal : Nat → List (Signalk.Update Val) → Option β) :
    List Parsed → List β → Prop where
  | nil : Broadcasts denv marshal [] []
  | quiet {p ps bs} : Reports denv p [] → Broadcasts denv marshal ps bs → Broadcasts denv marshal (p :: ps) bs
  | lost {p ps bs values now} : Reports denv p values → values ≠ [] →
      marshal now [⟨p.header.pgn, p.header.source, values⟩] = none →
      Broadcasts denv marshal ps bs → Broadcasts denv marshal (p :: ps) bs
  | sent {p ps b bs values now} : Reports denv p values → values ≠ [] →
      marshal now [⟨p.header.pgn, p.header.source, values⟩] = some b →
      Broadcasts denv marshal ps bs → Broadcasts denv marshal (p :: ps) (b :: bs)

/-- The value of the bits of field `k` of a message with definition `d`; none if they say "no value". -/
def OnWire (env : Nmea2k.Env) (v : MsgView) (d : Nmea2k.Pgn) (k : Nat) : Option Val :=
  d.fieldList[k]?.bind fun f =>
    match Nmea2k.Spec.fieldValue env v.data f (Nmea2k.Spec.position d.fieldList k) with
    | some .nil => none
    | r => r

/-- The group asks for field `k` of the message: it has its PGN, it names the field and the texts of the fields
its conditions name are as they demand (all conditions of the shipped file are equalities). -/
def Asks (denv : Signalk.Env Val) (env : Nmea2k.Env) (v : MsgView) (d : Nmea2k.Pgn) (k : Nat) (g : Signalk.Group) : Prop :=
  g.pgn = v.pgn ∧ Signalk.parseInt g.field 64 = ((k : Int), true) ∧
    ∀ c ∈ g.conditions, denv.text (OnWire env v d c.field.toNat) = c.value

/-- The path of the mapping, the placeholder of a classifier replaced by the text of the field it names. -/
def PathOf (denv : Signalk.Env Val) (env : Nmea2k.Env) (v : MsgView) (d : Nmea2k.Pgn) (mp : Signalk.Mapping)
    (g : Signalk.Group) : Str :=
  if Signalk.Spec.hasCls g then
    Signalk.replaceFirst (Signalk.bs "{" ++ g.clsId ++ Signalk.bs "}")
      (denv.text (OnWire env v d (Signalk.parseInt g.clsField 32).1.toNat)) (dotted mp.path)
  else dotted mp.path

/-- The path the mapping file has for field `k` of the message: that of the first group that asks for it. -/
def Named (denv : Signalk.Env Val) (env : Nmea2k.Env) (v : MsgView) (d : Nmea2k.Pgn) (k : Nat) (path : Str) : Prop :=
  ∃ pre mp g post, pairs MapTable.maps = pre ++ (mp, g) :: post ∧ Asks denv env v d k g ∧
    (∀ q ∈ pre, ¬ Asks denv env v d k q.2) ∧ path = PathOf denv env v d mp g ∧ PathOf denv env v d mp g ≠ []

/-! ## Proofs -/

theorem genuine_facts {p : Parsed} (h : Genuine p) :
    ((Signalk.toMsg p).data.map Prod.fst).Nodup ∧ ∃ d, pgnList[p.index]? = some d := by
  rcases h with ⟨env, raw, h⟩ | ⟨u, l, r, h, rfl⟩
  · obtain ⟨d, hd, _⟩ := Nmea2k.any_result Nmea2k.table_noMustInGroup h
    exact ⟨Signalk.parsed_keys h, d, hd⟩
  · obtain ⟨d, _, hd, hn, _⟩ := imported h
    refine ⟨?_, d, hd⟩
    have : (Signalk.toMsg (Iface.ofCanBoat r)).data.map Prod.fst = (r.data.map Prod.fst).map (fun n : Nat => (n : Int)) := by
      unfold Signalk.toMsg Iface.ofCanBoat
      rw [List.map_map, List.map_map]; rfl
    rw [this]
    exact List.Pairwise.map _ (fun a b h => by simpa using h) hn

section
variable {β : Type} {sort : List String → List String} {opts : Opts} {out : Outputs}
  {verbose : Bool} {denv : Signalk.Env Val} {marshal : Nat → List (Signalk.Update Val) → Option β}

theorem toMsg_perm {p : Parsed} {order : DataMap} (h : order.Perm p.data) :
    (Signalk.toMsg p).data.Perm (Signalk.toMsg { p with data := order }).data := (h.map _).symm

/-- What the program broadcasts of a message, its data taken in the order of the iteration. -/
theorem shipped_reports_at {m : Message Body} (hg : Genuine (parsedOf m)) (hp : m.body.order.Perm m.body.data) :
    ∃ values, (∃ d, pgnList[m.body.index]? = some d ∧
        Signalk.Reported denv d.repeatingFields (Signalk.toMsg (orderedOf m)) values) ∧
      (shippedProgram sort opts out verbose denv marshal).delta m =
        .ok (if values = [] then none else marshal m.body.now [⟨m.header.pgn, m.header.source, values⟩]) := by
  obtain ⟨hnd, d, hd⟩ := genuine_facts hg
  obtain ⟨r, hr⟩ := genuine_delta denv hg
  have hperm := toMsg_perm (p := parsedOf m) hp
  obtain ⟨r', hr', _⟩ := Signalk.C56_shipped (msg := Signalk.toMsg (parsedOf m)) (msg' := Signalk.toMsg (orderedOf m)) rfl rfl hnd hperm hr
  have hnd' : ((Signalk.toMsg (orderedOf m)).data.map Prod.fst).Nodup := (hperm.map Prod.fst).nodup_iff.mp hnd
  have hi : shippedReps[(Signalk.toMsg (orderedOf m)).index]? = some d.repeatingFields := by
    show shippedReps[(parsedOf m).index]? = _
    unfold shippedReps
    rw [List.getElem?_map, hd]; rfl
  obtain ⟨values, hrep, he⟩ := Signalk.C99_delta hr' hnd' hi
  refine ⟨values, ⟨d, hd, hrep⟩, ?_⟩
  simp only [shippedProgram, bind, Except.bind, pure, Except.pure, hr']
  rw [he]
  by_cases hv : values = []
  · rw [if_pos hv, if_pos hv]; rfl
  · rw [if_neg hv, if_neg hv]; rfl

/-- What the program broadcasts of a message. -/
theorem shipped_reports {m : Message Body} (hg : Genuine (parsedOf m)) (hp : m.body.order.Perm m.body.data) :
    ∃ values, Reports denv (parsedOf m) values ∧
      (shippedProgram sort opts out verbose denv marshal).delta m =
        .ok (if values = [] then none else marshal m.body.now [⟨m.header.pgn, m.header.source, values⟩]) := by
  obtain ⟨values, ⟨d, hd, hrep⟩, h⟩ := shipped_reports_at (sort := sort) (opts := opts) (out := out) (verbose := verbose)
    (denv := denv) (marshal := marshal) hg hp
  exact ⟨values, ⟨d, m.body.order, hd, hp, hrep⟩, h⟩

theorem shipped_broadcasts {ms : List (Message Body)}
    (hg : ∀ m ∈ ms, Genuine (parsedOf m) ∧ m.body.order.Perm m.body.data) :
    Broadcasts denv marshal (ms.map parsedOf)
      (deltasOf (shippedProgram sort opts out verbose denv marshal).delta ms) := by
  induction ms with
  | nil => exact .nil
  | cons m ms ih =>
    have ih' := ih (fun x hx => hg x (List.mem_cons_of_mem _ hx))
    obtain ⟨values, h1, h2⟩ := shipped_reports (sort := sort) (opts := opts) (out := out) (verbose := verbose)
      (denv := denv) (marshal := marshal) (hg m (by simp)).1 (hg m (by simp)).2
    rw [List.map_cons]
    by_cases hv : values = []
    · have e : deltasOf (shippedProgram sort opts out verbose denv marshal).delta (m :: ms) =
          deltasOf (shippedProgram sort opts out verbose denv marshal).delta ms := by
        unfold deltasOf
        rw [List.filterMap_cons, h2, if_pos hv]
      rw [e]
      subst hv
      exact .quiet h1 ih'
    · rw [if_neg hv] at h2
      cases hm : marshal m.body.now [⟨m.header.pgn, m.header.source, values⟩] with
      | none =>
        rw [hm] at h2
        have e : deltasOf (shippedProgram sort opts out verbose denv marshal).delta (m :: ms) =
            deltasOf (shippedProgram sort opts out verbose denv marshal).delta ms := by
          unfold deltasOf
          rw [List.filterMap_cons, h2]
        rw [e]
        exact .lost h1 hv hm ih'
      | some b =>
        rw [hm] at h2
        have e : deltasOf (shippedProgram sort opts out verbose denv marshal).delta (m :: ms) =
            b :: deltasOf (shippedProgram sort opts out verbose denv marshal).delta ms := by
          unfold deltasOf
          rw [List.filterMap_cons, h2]
        rw [e]
        exact .sent h1 hv hm ih'

variable [DecidableEq β]

/-- **C99** (contents): whatever the interfaces receive, every delta a client receives, at any moment of any
schedule, holds the PGN, the source and exactly the values reported of a message made of something an
interface received. -/
theorem C99_contents {env : Nmea2k.Env} {parse : RawMessage → GoM Parsed}
    (hparse : ∀ m, Nmea2k.ParsePacket pgnList env m (parse m)) (mem : Nat → Nat → List Byte) (g : Nat → Nat)
    (fp : List Nat) (bus : List (Nat × Ev)) (inputs : Nat → Input) {es : List (SysEvent Body β)} (ho : Ordinary es)
    (hfeed : Feeds es (fun i => (inputs i).acts parse mem g fp bus i))
    {s : Sys Body β} (h : sysExec (shippedProgram sort opts out verbose denv marshal) Sys.init es = some (.ok s))
    {c : Hub.Id} (hc : Hub.Spec.registered c (wsTrace es)) {b : β} (hb : b ∈ s.ws.got c) :
    ∃ i p values now, (inputs i).Made env fp bus i p ∧ Reports denv p values ∧ values ≠ [] ∧
      marshal now [⟨p.header.pgn, p.header.source, values⟩] = some b := by
  obtain ⟨i, m, hm, hd⟩ := client_origin ho h hc hb
  obtain ⟨hgen, hperm⟩ := feeds_genuine hparse mem g fp bus inputs hfeed i m hm
  obtain ⟨values, h1, h2⟩ := shipped_reports (sort := sort) (opts := opts) (out := out) (verbose := verbose)
    (denv := denv) (marshal := marshal) hgen hperm
  rw [h2] at hd
  injection hd with hd
  by_cases hv : values = []
  · rw [if_pos hv] at hd; cases hd
  · rw [if_neg hv] at hd
    exact ⟨i, parsedOf m, values, m.body.now,
      handed_made hparse mem g fp bus i (inputs i) ((hfeed i).1.subset (List.mem_map_of_mem hm)), h1, hv, hd⟩

/-- All messages handed over are taken, and their deltas received. -/
theorem all_received {env : Nmea2k.Env} {parse : RawMessage → GoM Parsed}
    (hparse : ∀ m, Nmea2k.ParsePacket pgnList env m (parse m)) (mem : Nat → Nat → List Byte) (g : Nat → Nat)
    (fp : List Nat) (bus : List (Nat × Ev)) (inputs : Nat → Input) {es : List (SysEvent Body β)} (ho : Ordinary es)
    (hall : ∀ i, (readBy i es).map parsedOf = Iface.handed ((inputs i).acts parse mem g fp bus i))
    (hperm : ∀ i, ∀ m ∈ readBy i es, m.body.order.Perm m.body.data)
    {s : Sys Body β} (h : sysExec (shippedProgram sort opts out verbose denv marshal) Sys.init es = some (.ok s))
    (hp : ∀ i, s.pending i = none) (ht : s.todo = []) (hpc : s.ws.pc = .idle) (hw : out.websockets = true)
    {c : Hub.Id} (hc : Hub.Spec.registered c (wsTrace es)) (h0 : before c (wsTrace es) = 0)
    (hin : c ∈ s.ws.conns) (hbuf : (s.ws.chan c).buf = []) :
    ∃ taken : List (Nat × Parsed),
      (∀ i, Canusb.ofPort i taken = Iface.handed ((inputs i).acts parse mem g fp bus i)) ∧
      Broadcasts denv marshal (taken.map Prod.snd) (s.ws.got c) := by
  have hord : ∀ i, takenFrom i s.consumed = readBy i es := by
    intro i
    have := C69_order h i
    rw [hp i] at this
    simpa using this
  refine ⟨s.consumed.map (fun x => (x.1, parsedOf x.2)), fun i => ?_, ?_⟩
  · have e : Canusb.ofPort i (s.consumed.map (fun x => (x.1, parsedOf x.2))) = (takenFrom i s.consumed).map parsedOf := by
      unfold Canusb.ofPort takenFrom
      rw [List.filter_map, List.map_map, List.map_map]
      rfl
    rw [e, hord, hall i]
  · rw [C82_caught_up ho h hc hw hin hbuf hpc ht, h0, List.drop_zero, List.map_map]
    have e : s.consumed.map (Prod.snd ∘ fun x => (x.1, parsedOf x.2)) = (s.consumed.map Prod.snd).map parsedOf := by
      rw [List.map_map]; rfl
    rw [e]
    apply shipped_broadcasts
    intro m hm
    obtain ⟨⟨i, m'⟩, hi, rfl⟩ := List.mem_map.mp hm
    have hmr : m' ∈ readBy i es := by
      rw [← hord i]
      unfold takenFrom
      exact List.mem_map.mpr ⟨(i, m'), List.mem_filter.mpr ⟨hi, by simp⟩, rfl⟩
    refine ⟨made_genuine (handed_made hparse mem g fp bus i (inputs i) ?_), hperm i m' hmr⟩
    rw [← hall i]
    exact List.mem_map_of_mem hmr

/-- **C99** (all of them): when the interfaces have handed over all they make of what they received, the
consumer and the hub are done and a client connected since the first delta has kept up, it has received exactly
the deltas of those messages, with exactly the values reported of each. -/
theorem C99_complete {env : Nmea2k.Env} {parse : RawMessage → GoM Parsed}
    (hparse : ∀ m, Nmea2k.ParsePacket pgnList env m (parse m)) (mem : Nat → Nat → List Byte) (g : Nat → Nat)
    (fp : List Nat) (bus : List (Nat × Ev)) (inputs : Nat → Input) {es : List (SysEvent Body β)} (ho : Ordinary es)
    (hall : ∀ i, (readBy i es).map parsedOf = Iface.handed ((inputs i).acts parse mem g fp bus i))
    (hperm : ∀ i, ∀ m ∈ readBy i es, m.body.order.Perm m.body.data)
    {s : Sys Body β} (h : sysExec (shippedProgram sort opts out verbose denv marshal) Sys.init es = some (.ok s))
    (hp : ∀ i, s.pending i = none) (ht : s.todo = []) (hpc : s.ws.pc = .idle) (hw : out.websockets = true)
    {c : Hub.Id} (hc : Hub.Spec.registered c (wsTrace es)) (h0 : before c (wsTrace es) = 0)
    (hin : c ∈ s.ws.conns) (hbuf : (s.ws.chan c).buf = []) :
    ∃ taken : List (Nat × Parsed),
      (∀ i, (inputs i).Makes env g fp bus i (Canusb.ofPort i taken)) ∧
      Broadcasts denv marshal (taken.map Prod.snd) (s.ws.got c) := by
  obtain ⟨taken, h1, h2⟩ := all_received hparse mem g fp bus inputs ho hall hperm h hp ht hpc hw hc h0 hin hbuf
  refine ⟨taken, fun i => ?_, h2⟩
  rw [h1 i]
  exact handed_makes hparse mem g fp bus i (inputs i)

omit [DecidableEq β] in
theorem broadcasts_mem {ps : List Parsed} {bs : List β} (h : Broadcasts denv marshal ps bs) {p : Parsed} (hp : p ∈ ps) :
    ∃ values, Reports denv p values ∧ (values = [] ∨
      ∃ now, marshal now [⟨p.header.pgn, p.header.source, values⟩] = none ∨
        ∃ b ∈ bs, marshal now [⟨p.header.pgn, p.header.source, values⟩] = some b) := by
  induction h with
  | nil => cases hp
  | quiet hr _ ih =>
    rcases List.mem_cons.mp hp with rfl | hp
    · exact ⟨[], hr, Or.inl rfl⟩
    · exact ih hp
  | lost hr _ hm _ ih =>
    rcases List.mem_cons.mp hp with rfl | hp
    · exact ⟨_, hr, Or.inr ⟨_, Or.inl hm⟩⟩
    · exact ih hp
  | sent hr _ hm _ ih =>
    rcases List.mem_cons.mp hp with rfl | hp
    · exact ⟨_, hr, Or.inr ⟨_, Or.inr ⟨_, by simp, hm⟩⟩⟩
    · obtain ⟨values, h1, h2 | ⟨now, h2 | ⟨b, hb, h2⟩⟩⟩ := ih hp
      · exact ⟨values, h1, Or.inl h2⟩
      · exact ⟨values, h1, Or.inr ⟨now, Or.inl h2⟩⟩
      · exact ⟨values, h1, Or.inr ⟨now, Or.inr ⟨b, by simp [hb], h2⟩⟩⟩

theorem shipped_cls : ∀ mp ∈ MapTable.maps, ∀ g ∈ mp.groups, Signalk.Spec.hasCls g →
    (Signalk.parseInt g.clsField 32).1 = ((Signalk.parseInt g.clsField 32).1.toNat : Int) := by decide +kernel

omit [DecidableEq β] in
/-- The data of a message are the values of its bits, in any order. -/
theorem wire_get {env : Nmea2k.Env} {v : MsgView} {p : Parsed} (hdec : Iface.Decoded env v p) {i : Nat}
    {d : Nmea2k.Pgn} (ho : Nmea2k.Spec.onlyDefinition pgnList v.pgn i d) (h60928 : v.pgn ≠ 60928)
    (hrep : d.repeatingFields = 0)
    (hlz : ∀ k f, d.fieldList[k]? = some f → f.res = .stringLZ →
      Nmea2k.lzSafe v.data (Nmea2k.Spec.position d.fieldList k / 8))
    (hlen : Nmea2k.Spec.position d.fieldList d.fieldList.length ≤ 8 * v.data.length)
    {order : DataMap} (hperm : order.Perm p.data) :
    (∀ k val, OnWire env v d k = some val → ((k : Int), some val) ∈ (Signalk.toMsg { p with data := order }).data) ∧
    ∀ k : Nat, (Signalk.toMsg { p with data := order }).data.get (k : Int) = OnWire env v d k := by
  obtain ⟨_, _, _, _, _, e6, e7⟩ := Iface.C90_values hdec ho h60928 hrep hlz hlen
  have hnd : (p.data.map Prod.fst).Nodup := by rw [e6]; exact List.nodup_range
  have hnd' : (order.map Prod.fst).Nodup := (hperm.map Prod.fst).nodup_iff.mpr hnd
  have hnm : ((Signalk.toMsg { p with data := order }).data.map Prod.fst).Nodup := by
    have : (Signalk.toMsg { p with data := order }).data.map Prod.fst = (order.map Prod.fst).map (fun n : Nat => (n : Int)) := by
      unfold Signalk.toMsg
      rw [List.map_map, List.map_map]; rfl
    rw [this]
    exact List.Pairwise.map _ (fun a b h => by simpa using h) hnd'
  -- what the map holds for a field of the definition
  have hin : ∀ k f, d.fieldList[k]? = some f →
      (k, (Nmea2k.Spec.fieldValue env v.data f (Nmea2k.Spec.position d.fieldList k)).getD .nil) ∈ p.data := by
    intro k f hf
    have hget := e7 k f hf
    have hklt : k < d.fieldList.length := (List.getElem?_eq_some_iff.mp hf).1
    have hkm : k ∈ p.data.map Prod.fst := by rw [e6]; exact List.mem_range.mpr hklt
    obtain ⟨e, he, hek⟩ := List.mem_map.mp hkm
    unfold Nmea2k.DataMap.get at hget
    cases hx : p.data.find? (fun e => decide (e.1 = k)) with
    | none =>
      have := List.find?_eq_none.mp hx e he
      simp only [decide_eq_true_eq] at this
      exact absurd hek this
    | some e' =>
      rw [hx] at hget
      have h1 := List.mem_of_find?_eq_some hx
      have h2 := List.find?_some hx
      simp only [decide_eq_true_eq] at h2
      rw [← hget]
      have : e' = (k, e'.2) := Prod.ext h2 rfl
      rw [this] at h1; exact h1
  have hmsg : ∀ (k : Nat) f, d.fieldList[k]? = some f → ((k : Int), OnWire env v d k) ∈ (Signalk.toMsg { p with data := order }).data := by
    intro k f hf
    refine List.mem_map.mpr ⟨_, hperm.symm.subset (hin k f hf), ?_⟩
    unfold OnWire
    rw [hf, Option.bind_some]
    cases Nmea2k.Spec.fieldValue env v.data f (Nmea2k.Spec.position d.fieldList k) with
    | none => rfl
    | some val => cases val <;> rfl
  refine ⟨fun k val h => ?_, fun k => ?_⟩
  · cases hf : d.fieldList[k]? with
    | none => unfold OnWire at h; rw [hf] at h; cases h
    | some f => rw [← h]; exact hmsg k f hf
  · unfold Signalk.Data.get
    cases hf : d.fieldList[k]? with
    | some f => rw [(Signalk.mapFind_iff hnm _ _).mpr (hmsg k f hf)]; rfl
    | none =>
      have e : OnWire env v d k = none := by unfold OnWire; rw [hf]; rfl
      rw [e]
      cases hx : Signalk.mapFind (Signalk.toMsg { p with data := order }).data (k : Int) with
      | none => rfl
      | some o =>
        exfalso
        have := (Signalk.mapFind_iff hnm _ _).mp hx
        obtain ⟨e, he, hek⟩ := List.mem_map.mp this
        have h1 : e.1 = k := by injection hek with h _; simpa using h
        have : k ∈ p.data.map Prod.fst := List.mem_map.mpr ⟨e, hperm.subset he, h1⟩
        rw [e6] at this
        have := List.mem_range.mp this
        rw [List.getElem?_eq_none_iff] at hf
        omega

/-- All conditions of the shipped file ask for equality, of fields that can exist. -/
theorem shipped_conditions : ∀ mp ∈ MapTable.maps, ∀ g ∈ mp.groups, ∀ c ∈ g.conditions,
    c.op = Signalk.bs "eq" ∧ c.field = (c.field.toNat : Int) := by decide +kernel

omit [DecidableEq β] in
/-- **C99** (one field): the value of the bits of a field is reported under the path the mapping file has for it,
and nothing else is reported. -/
theorem C99_field {env : Nmea2k.Env} {v : MsgView} {p : Parsed} (hdec : Iface.Decoded env v p) {i : Nat}
    {d : Nmea2k.Pgn} (ho : Nmea2k.Spec.onlyDefinition pgnList v.pgn i d) (h60928 : v.pgn ≠ 60928)
    (hrep : d.repeatingFields = 0)
    (hlz : ∀ k f, d.fieldList[k]? = some f → f.res = .stringLZ →
      Nmea2k.lzSafe v.data (Nmea2k.Spec.position d.fieldList k / 8))
    (hlen : Nmea2k.Spec.position d.fieldList d.fieldList.length ≤ 8 * v.data.length)
    {values : List (Str × Value Val)} (hr : Reports denv p values) (path : Str) (val : Val) :
    (path, Value.plain val) ∈ values ↔ ∃ k, OnWire env v d k = some val ∧ Named denv env v d k path := by
  obtain ⟨e1, _, e3, _, _, e6, e7⟩ := Iface.C90_values hdec ho h60928 hrep hlz hlen
  obtain ⟨d', order, hd', hperm, hpl, _⟩ := hr
  have hdd : d' = d := by
    rw [e1, ho.1] at hd'; injection hd' with hd'; exact hd'.symm
  subst hdd
  rw [hrep] at hpl
  obtain ⟨w1, w2⟩ := wire_get hdec ho h60928 hrep hlz hlen hperm
  have h127 : v.pgn ≠ 127503 := by
    intro hc
    have hac := Signalk.ac_only
    have := hac.2.2 i d' ho.1 (by rw [ho.2.1, hc])
    have hx := ho.1
    rw [this, hac.1] at hx
    injection hx with hx
    rw [← hx] at hrep
    exact absurd hrep (by decide +kernel)
  have hnomult : ∀ pg ∈ pairs MapTable.maps, pg.2.pgn = v.pgn → ¬ Signalk.Spec.hasMult pg.2 := by
    intro pg hpg hp hm
    obtain ⟨m1, m2⟩ := Signalk.mem_pairs.mp (show (pg.1, pg.2) ∈ pairs MapTable.maps from hpg)
    exact h127 (by rw [← hp]; exact Signalk.shipped_mult _ m1 _ m2 hm)
  have hpgn : (Signalk.toMsg { p with data := order }).pgn = v.pgn := e3
  -- a group applies to a field as the specification says
  have happ : ∀ pg ∈ pairs MapTable.maps, ∀ k : Nat,
      (Signalk.Spec.applies denv (Signalk.toMsg { p with data := order }) 0 (k : Int) pg ↔ Asks denv env v d' k pg.2) := by
    intro pg hpg k
    obtain ⟨m1, m2⟩ := Signalk.mem_pairs.mp (show (pg.1, pg.2) ∈ pairs MapTable.maps from hpg)
    have hcond := shipped_conditions _ m1 _ m2
    have hacc : Signalk.Spec.accepted denv (Signalk.toMsg { p with data := order }).data pg.2.conditions ↔
        ∀ c ∈ pg.2.conditions, denv.text (OnWire env v d' c.field.toNat) = c.value := by
      have hall : pg.2.conditions.takeWhile (fun c => Signalk.Spec.knownOp c.op) = pg.2.conditions := by
        have : ∀ {l : List Signalk.Condition}, (∀ c ∈ l, Signalk.Spec.knownOp c.op = true) →
            l.takeWhile (fun c => Signalk.Spec.knownOp c.op) = l := by
          intro l
          induction l with
          | nil => intro _; rfl
          | cons a l ih =>
            intro h
            rw [List.takeWhile_cons, if_pos (h a (by simp)), ih (fun c hc => h c (by simp [hc]))]
        refine this fun c hc => ?_
        rw [(hcond c hc).1]; decide +kernel
      unfold Signalk.Spec.accepted
      rw [hall]
      refine forall₂_congr fun c hc => ?_
      obtain ⟨c1, c2⟩ := hcond c hc
      have hg : (Signalk.toMsg { p with data := order }).data.get c.field = OnWire env v d' c.field.toNat := by
        conv => lhs; rw [c2]
        exact w2 _
      unfold Signalk.Spec.holds
      rw [hg, c1]
      constructor
      · intro h; exact h.1 rfl
      · intro h
        refine ⟨fun _ => h, fun h' => ?_, fun h' => ?_, fun h' => ?_, fun h' => ?_⟩ <;>
          exact absurd h' (by decide +kernel)
    unfold Signalk.Spec.applies Asks Signalk.Spec.names
    rw [hpgn, hacc]
    constructor
    · rintro ⟨a1, ⟨a2, a3⟩, a4⟩
      refine ⟨a1, ?_, a4⟩
      rcases a3 with a3 | ⟨a3, _⟩
      · exact Prod.ext a3 a2
      · exact absurd a3 (hnomult pg hpg a1)
    · rintro ⟨a1, a2, a4⟩
      exact ⟨a1, ⟨by rw [a2], Or.inl (by rw [a2])⟩, a4⟩
  have hpath : ∀ pg ∈ pairs MapTable.maps, pg.2.pgn = v.pgn → ∀ k : Nat,
      Signalk.Spec.pathFor denv (Signalk.toMsg { p with data := order }).data 0 (k : Int) pg.1 pg.2 =
        PathOf denv env v d' pg.1 pg.2 := by
    intro pg hpg hp k
    obtain ⟨m1, m2⟩ := Signalk.mem_pairs.mp (show (pg.1, pg.2) ∈ pairs MapTable.maps from hpg)
    unfold Signalk.Spec.pathFor PathOf
    simp only
    rw [if_neg (hnomult pg hpg hp)]
    by_cases hc : Signalk.Spec.hasCls pg.2
    · rw [if_pos hc, if_pos hc, (shipped_cls _ m1 _ m2 hc), w2]
      rfl
    · rw [if_neg hc, if_neg hc]
  rw [← Signalk.mem_plainPart, hpl, List.mem_filterMap]
  constructor
  · rintro ⟨⟨kk, o⟩, hmem, hcon⟩
    have hk : ∃ k : Nat, kk = (k : Int) := by
      obtain ⟨e, _, he⟩ := List.mem_map.mp hmem
      injection he with he _
      exact ⟨e.1, he.symm⟩
    obtain ⟨k, rfl⟩ := hk
    have ho' : o = OnWire env v d' k := by
      rw [← w2 k]
      have hnm : ((Signalk.toMsg { p with data := order }).data.map Prod.fst).Nodup := by
        have : (Signalk.toMsg { p with data := order }).data.map Prod.fst = (order.map Prod.fst).map (fun n : Nat => (n : Int)) := by
          unfold Signalk.toMsg
          rw [List.map_map, List.map_map]; rfl
        rw [this]
        refine List.Pairwise.map _ (fun a b h => by simpa using h) ?_
        exact (hperm.map Prod.fst).nodup_iff.mpr (by rw [e6]; exact List.nodup_range)
      unfold Signalk.Data.get
      rw [(Signalk.mapFind_iff hnm _ _).mpr hmem]; rfl
    unfold Signalk.Spec.contribution at hcon
    obtain ⟨pg, hfind, hcon⟩ := Option.bind_eq_some_iff.mp hcon
    obtain ⟨val', hval, hcon⟩ := Option.bind_eq_some_iff.mp hcon
    simp only at hval
    split at hcon
    · cases hcon
    · rename_i hne
      injection hcon with hcon
      injection hcon with c1 c2
      subst c2
      have hpgm := List.mem_of_find?_eq_some hfind
      obtain ⟨pre, post, hs, hno⟩ := (List.find?_eq_some_iff_append.mp hfind).2
      have hap := (List.find?_eq_some_iff_append.mp hfind).1
      have hap : Signalk.Spec.applies denv (Signalk.toMsg { p with data := order }) 0 (k : Int) pg := by simpa using hap
      rw [hpath pg hpgm (by rw [← hpgn]; exact hap.1) k] at c1 hne
      refine ⟨k, by rw [← ho']; exact hval, pre, pg.1, pg.2, post, hs, (happ pg hpgm k).mp hap, ?_, c1.symm, ?_⟩
      · intro q hq hask
        have hqm : q ∈ pairs MapTable.maps := by rw [hs]; simp [hq]
        have := hno q hq
        simp only [Bool.not_eq_true', decide_eq_false_iff_not] at this
        exact this ((happ q hqm k).mpr hask)
      · exact hne
  · rintro ⟨k, hw, pre, mp, g, post, hs, hask, hno, rfl, hne⟩
    have hmem : (mp, g) ∈ pairs MapTable.maps := by rw [hs]; simp
    refine ⟨((k : Int), some val), w1 k val hw, ?_⟩
    unfold Signalk.Spec.contribution
    have : (pairs MapTable.maps).find? (fun pg => @decide (Signalk.Spec.applies denv
        (Signalk.toMsg { p with data := order }) 0 (k : Int) pg) (Classical.propDecidable _)) = some (mp, g) := by
      have hpos := (happ (mp, g) hmem k).mpr hask
      conv => lhs; arg 2; rw [hs]
      rw [List.find?_append, List.find?_eq_none.mpr ?_, List.find?_cons_of_pos (by simpa using hpos)]
      · rfl
      · intro pg hpg hap
        simp only [decide_eq_true_eq] at hap
        exact hno pg hpg ((happ pg (by rw [hs]; simp [hpg]) k).mp hap)
    rw [this]
    simp only [Option.bind_some]
    rw [hpath (mp, g) hmem hask.1 k, if_neg hne]

/-- `C99_wire` when only the deltas of this frame are known to be encodable. -/
theorem wire_received {env : Nmea2k.Env} {parse : RawMessage → GoM Parsed}
    (hparse : ∀ m, Nmea2k.ParsePacket pgnList env m (parse m)) (mem : Nat → Nat → List Byte) (g : Nat → Nat)
    (fp : List Nat) (bus : List (Nat × Ev)) (inputs : Nat → Input) {es : List (SysEvent Body β)} (hord : Ordinary es)
    (hall : ∀ i, (readBy i es).map parsedOf = Iface.handed ((inputs i).acts parse mem g fp bus i))
    (hperm : ∀ i, ∀ m ∈ readBy i es, m.body.order.Perm m.body.data)
    {s : Sys Body β} (h : sysExec (shippedProgram sort opts out verbose denv marshal) Sys.init es = some (.ok s))
    (hp : ∀ i, s.pending i = none) (ht : s.todo = []) (hpc : s.ws.pc = .idle) (hw : out.websockets = true)
    {c : Hub.Id} (hc : Hub.Spec.registered c (wsTrace es)) (h0 : before c (wsTrace es) = 0)
    (hin : c ∈ s.ws.conns) (hbuf : (s.ws.chan c).buf = []) {n : Nat} {fs : List (List Ev × List Byte)}
    (hn : inputs n = .ngt (fs.flatMap (fun f => f.1 ++ Actisense.stream (NgtSpec.wire f.2))))
    (hq : ∀ f ∈ fs, Actisense.Quiet f.1)
    (hv : ∀ f ∈ fs, NgtSpec.verdict f.2 ≠ .crash ∧ NgtSpec.verdict f.2 ≠ .overrun)
    (hh : ∀ f ∈ fs, ∀ v, NgtSpec.accepted f.2 = some v → Iface.Harmless v)
    {frame : List Ev × List Byte} (hframe : frame ∈ fs) {v : MsgView} (hacc : NgtSpec.accepted frame.2 = some v)
    {i : Nat} {d : Nmea2k.Pgn} (ho : Nmea2k.Spec.onlyDefinition pgnList v.pgn i d) (h60928 : v.pgn ≠ 60928)
    (hrep : d.repeatingFields = 0)
    (hlz : ∀ k f, d.fieldList[k]? = some f → f.res = .stringLZ →
      Nmea2k.lzSafe v.data (Nmea2k.Spec.position d.fieldList k / 8))
    (hlen : Nmea2k.Spec.position d.fieldList d.fieldList.length ≤ 8 * v.data.length)
    (hmar : ∀ p values now, Iface.Decoded env v p → Reports denv p values →
      marshal now [⟨v.pgn, v.source, values⟩] ≠ none) :
    ∃ values, (∀ path val, (path, Value.plain val) ∈ values ↔
        ∃ k, OnWire env v d k = some val ∧ Named denv env v d k path) ∧
      (values ≠ [] → ∃ now, ∃ b ∈ s.ws.got c, marshal now [⟨v.pgn, v.source, values⟩] = some b) := by
  obtain ⟨taken, h1, h2⟩ := all_received hparse mem g fp bus inputs hord hall hperm h hp ht hpc hw hc h0 hin hbuf
  obtain ⟨ps, k1, k2⟩ := Iface.C90_ngt_partial hparse g fs hq hv hh
  have h1n := h1 n
  rw [hn] at h1n
  simp only [Input.acts] at h1n
  rw [k1, handed_all] at h1n
  have hvm : v ∈ fs.filterMap (fun f => NgtSpec.accepted f.2) := List.mem_filterMap.mpr ⟨frame, hframe, hacc⟩
  have : ∀ {vs : List MsgView} {ps : List Parsed}, List.Forall₂ (Iface.Decoded env) vs ps → v ∈ vs →
      ∃ p ∈ ps, Iface.Decoded env v p := by
    intro vs ps hf
    induction hf with
    | nil => intro h; cases h
    | cons hd _ ih =>
      intro h
      rcases List.mem_cons.mp h with rfl | h
      · exact ⟨_, by simp, hd⟩
      · obtain ⟨p, hp, hd'⟩ := ih h; exact ⟨p, by simp [hp], hd'⟩
  obtain ⟨p, hpm, hdec⟩ := this k2 hvm
  have hpt : p ∈ taken.map Prod.snd := by
    rw [← h1n] at hpm
    unfold Canusb.ofPort at hpm
    obtain ⟨x, hx, rfl⟩ := List.mem_map.mp hpm
    exact List.mem_map_of_mem (List.mem_filter.mp hx).1
  obtain ⟨values, hr, hcase⟩ := broadcasts_mem h2 hpt
  refine ⟨values, C99_field hdec ho h60928 hrep hlz hlen hr, fun hne => ?_⟩
  have e1 : p.header.pgn = v.pgn := by rw [← hdec.1]; rfl
  have e2 : p.header.source = v.source := by rw [← hdec.1]; rfl
  rw [e1, e2] at hcase
  rcases hcase with h | ⟨now, h | h⟩
  · exact absurd h hne
  · exact absurd h (hmar _ _ _ hdec hr)
  · exact ⟨now, h⟩

/-- **C99** (from the bits on the wire to the client): if an NGT-1 receives well-formed frames, each harmless,
then, when all is handed over and a client connected since the first delta has kept up, it has received for every
acceptable frame (of a PGN with one definition without repetition, and long enough) a delta with the PGN and
source of the frame and the value of the bits of every field under the path the mapping file has for it, and no
other value of a field; unless there are no values. -/
theorem C99_wire {env : Nmea2k.Env} {parse : RawMessage → GoM Parsed}
    (hparse : ∀ m, Nmea2k.ParsePacket pgnList env m (parse m)) (mem : Nat → Nat → List Byte) (g : Nat → Nat)
    (fp : List Nat) (bus : List (Nat × Ev)) (inputs : Nat → Input) {es : List (SysEvent Body β)} (hord : Ordinary es)
    (hall : ∀ i, (readBy i es).map parsedOf = Iface.handed ((inputs i).acts parse mem g fp bus i))
    (hperm : ∀ i, ∀ m ∈ readBy i es, m.body.order.Perm m.body.data)
    {s : Sys Body β} (h : sysExec (shippedProgram sort opts out verbose denv marshal) Sys.init es = some (.ok s))
    (hp : ∀ i, s.pending i = none) (ht : s.todo = []) (hpc : s.ws.pc = .idle) (hw : out.websockets = true)
    {c : Hub.Id} (hc : Hub.Spec.registered c (wsTrace es)) (h0 : before c (wsTrace es) = 0)
    (hin : c ∈ s.ws.conns) (hbuf : (s.ws.chan c).buf = []) (hmar : ∀ now us, marshal now us ≠ none)
    {n : Nat} {fs : List (List Ev × List Byte)}
    (hn : inputs n = .ngt (fs.flatMap (fun f => f.1 ++ Actisense.stream (NgtSpec.wire f.2))))
    (hq : ∀ f ∈ fs, Actisense.Quiet f.1)
    (hv : ∀ f ∈ fs, NgtSpec.verdict f.2 ≠ .crash ∧ NgtSpec.verdict f.2 ≠ .overrun)
    (hh : ∀ f ∈ fs, ∀ v, NgtSpec.accepted f.2 = some v → Iface.Harmless v)
    {frame : List Ev × List Byte} (hframe : frame ∈ fs) {v : MsgView} (hacc : NgtSpec.accepted frame.2 = some v)
    {i : Nat} {d : Nmea2k.Pgn} (ho : Nmea2k.Spec.onlyDefinition pgnList v.pgn i d) (h60928 : v.pgn ≠ 60928)
    (hrep : d.repeatingFields = 0)
    (hlz : ∀ k f, d.fieldList[k]? = some f → f.res = .stringLZ →
      Nmea2k.lzSafe v.data (Nmea2k.Spec.position d.fieldList k / 8))
    (hlen : Nmea2k.Spec.position d.fieldList d.fieldList.length ≤ 8 * v.data.length) :
    ∃ values, (∀ path val, (path, Value.plain val) ∈ values ↔
        ∃ k, OnWire env v d k = some val ∧ Named denv env v d k path) ∧
      (values ≠ [] → ∃ now, ∃ b ∈ s.ws.got c, marshal now [⟨v.pgn, v.source, values⟩] = some b) :=
  wire_received hparse mem g fp bus inputs hord hall hperm h hp ht hpc hw hc h0 hin hbuf hn hq hv hh hframe hacc ho
    h60928 hrep hlz hlen (fun _ _ _ _ _ => hmar _ _)

end

/-! ## A run -/

theorem run_all : ∀ i, (readBy i wholeRun).map parsedOf =
    Iface.handed ((runInput i).acts (Iface.someParse runTables) (fun _ _ => []) (fun _ => 0) [] [] i) := by
  intro i
  rw [run_reads]
  have hp : Iface.someParse runTables runRaw = .ok (parsedOf runMsg) :=
    Nmea2k.ParsePacket_det (Iface.someParse_spec runTables runRaw) runMsg_parsed
  by_cases hi : i = 0
  · rw [if_pos hi]
    have hs : (Actisense.session (fun _ => 0) Actisense.RState.init
        (Actisense.stream (NgtSpec.wire Actisense.sampleContent))).1 = [.msg runRaw] := by decide +kernel
    simp only [runInput, Input.acts, if_pos hi, Iface.actisenseActs, hs, Iface.actisenseLoop, hp]
    rfl
  · rw [if_neg hi]
    simp only [runInput, Input.acts, if_neg hi]
    rfl

/-- The run of `wholeRun` meets the hypotheses of `C99_wire`: the heading on the wire reaches client 5. -/
example : ∃ s, sysExec runProgram Sys.init wholeRun = some (.ok s) ∧
    ∃ values, (Signalk.bs "navigation.headingMagnetic", Value.plain (.f64 770 (.scale "RES_DEGREES"))) ∈ values ∧
      ∃ now, ∃ b ∈ s.ws.got 5, runMarshal now [⟨127250, 1, values⟩] = some b := by
  have hx : (match sysExec runProgram Sys.init wholeRun with
    | some (.ok s) => (s.pending 0).isNone && decide (s.todo.length = 0) &&
        (match s.ws.pc with | .idle => true | _ => false) &&
        decide (5 ∈ s.ws.conns) && decide ((s.ws.chan 5).buf = [])
    | _ => false) = true := by decide +kernel
  cases hs : sysExec runProgram Sys.init wholeRun with
  | none => rw [hs] at hx; cases hx
  | some r =>
    cases r with
    | error e => rw [hs] at hx; cases hx
    | ok s =>
      rw [hs] at hx
      simp only [Bool.and_eq_true, decide_eq_true_eq, List.length_eq_zero_iff] at hx
      obtain ⟨⟨⟨⟨hp0, ht⟩, hpc⟩, hin⟩, hbuf⟩ := hx
      have hpc' : s.ws.pc = .idle := by revert hpc; cases s.ws.pc <;> simp
      have hperm : ∀ i, ∀ m ∈ readBy i wholeRun, m.body.order.Perm m.body.data := by
        intro i m hm
        rw [run_reads] at hm
        split at hm
        · rw [List.mem_singleton.mp hm]
          exact (List.reverse_perm runMsg.body.data : (runMsg.body.data.reverse).Perm _)
        · cases hm
      have hp : ∀ i, s.pending i = none := by
        intro i
        by_cases hi : i = 0
        · subst hi; exact Option.isNone_iff_eq_none.mp hp0
        · have := C69_order hs i
          rw [run_reads, if_neg hi] at this
          have := (List.append_eq_nil_iff.mp this).2
          revert this; cases s.pending i <;> simp
      have hacc : NgtSpec.accepted Actisense.sampleContent = some Actisense.sampleView := by decide
      obtain ⟨values, h1, h2⟩ := C99_wire (Iface.someParse_spec runTables) (fun _ _ => []) (fun _ => 0) [] [] runInput
        run_ok.2.1 run_all hperm hs hp ht hpc' rfl run_ok.2.2.2.2.1 run_ok.2.2.2.2.2 hin hbuf
        (by intro now us; simp [runMarshal])
        (n := 0) (fs := [([], Actisense.sampleContent)]) (by simp [runInput])
        (by intro f hf e he; rw [List.mem_singleton.mp hf] at he; cases he)
        (by decide)
        (by
          intro f hf v hv
          rw [List.mem_singleton.mp hf, hacc] at hv
          cases hv
          exact Iface.C90_harmless (by decide))
        (List.mem_singleton.mpr rfl) hacc
        (Nmea2k.onlyB_spec (i := 77) (d := Nmea2k.Table.p77) (by decide +kernel) (by decide +kernel)) (by decide) rfl
        (by
          intro k f hf hres
          exact absurd hres (Nmea2k.noLZ_spec (d := Nmea2k.Table.p77) (by decide +kernel) hf))
        (by decide +kernel)
      have hmem : (Signalk.bs "navigation.headingMagnetic", Value.plain (.f64 770 (.scale "RES_DEGREES"))) ∈ values := by
        refine (h1 _ _).mpr ⟨1, by decide +kernel, (pairs MapTable.maps).take 43, Signalk.MapTable.m40,
          ⟨127250, ⟨[], []⟩, Signalk.bs "1", [], [], [], [], [⟨Signalk.bs "eq", 4, Signalk.bs "Magnetic"⟩]⟩,
          (pairs MapTable.maps).drop 44, by decide +kernel, ⟨rfl, by decide +kernel, by decide +kernel⟩, ?_,
          by decide +kernel, by decide +kernel⟩
        intro q hq hask
        have : ∀ q ∈ (pairs MapTable.maps).take 43, q.2.pgn ≠ 127250 := by decide +kernel
        exact this q hq hask.1
      exact ⟨s, rfl, values, hmem, h2 (fun h => by rw [h] at hmem; cases hmem)⟩

end Argo.Main
