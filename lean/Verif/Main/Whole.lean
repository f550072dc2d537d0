import Verif.Main.SystemProps
import Verif.Iface.Wire
import Verif.Iface.File
import Mathlib.Data.List.Nodup
import Mathlib.Data.List.Perm.Subperm

set_option autoImplicit false

/-!
# The program with the shipped table and mapping file (C92, C93)

`Program` instantiated with the models of `Print` and `Delta`, the shipped PGN table and `map.xml`.
-/

namespace Argo.Main

open Argo
open Argo.Nmea2k (Parsed Val DataMap)
open Argo.Nmea2k.Table (pgnList)
open Argo.Signalk (MapTable.maps shippedReps)

/-! ## The instance -/

/-- What a `ParsedMessage` has besides its header, and what is decided while it is consumed: the order in
which `range msg.Data` (signalk.go:133) goes through the map, and `time.Now()` (signalk.go:127). -/
structure Body where
  index : Nat
  data : DataMap
  order : DataMap
  now : Nat

/-- The `ParsedMessage`. -/
def parsedOf (m : Message Body) : Parsed := ⟨m.header, m.body.index, m.body.data⟩

/-- The same with the data in iteration order. -/
def orderedOf (m : Message Body) : Parsed := ⟨m.header, m.body.index, m.body.order⟩

/-- argo.go:158-209 with the shipped table and mapping file.  `marshal` is `json.Marshal` of the delta with
the given timestamp, `none` when it returns an error. -/
def shippedProgram {β : Type} (sort : List String → List String) (opts : Opts) (out : Outputs) (verbose : Bool)
    (denv : Signalk.Env Val) (marshal : Nat → List (Signalk.Update Val) → Option β) : Program Body β where
  sort := sort
  opts := opts
  out := out
  print := fun m => do
    let _ ← Nmea2k.print pgnList (parsedOf m) verbose
    return ()
  delta := fun m => do
    let r ← Signalk.delta denv shippedReps MapTable.maps (Signalk.toMsg (orderedOf m))
    return r.bind (marshal m.body.now)

/-! ## Specification -/

/-- A message as an interface makes it: decoded from a received one, or read from a file. -/
def Genuine (p : Parsed) : Prop :=
  (∃ env raw, Nmea2k.ParsePacket pgnList env raw (.ok p)) ∨
  ∃ (unmarshal : Iface.Str → Nmea2k.CanBoat Val) (line : Iface.Str) (r : Nmea2k.CanBoatParsed Val),
    Nmea2k.fromCanBoat pgnList unmarshal line = .ok (some r) ∧ p = Iface.ofCanBoat r

/-- The interfaces of a schedule read genuine messages, each with some iteration order of its map. -/
def GenuineInput {β : Type} (es : List (SysEvent Body β)) : Prop :=
  ∀ i, ∀ m ∈ readBy i es, Genuine (parsedOf m) ∧ m.body.order.Perm m.body.data

/-! ## Imported messages -/

theorem dataSet_keys {α : Type} (d : List (Nat × α)) (k : Nat) (v : α) (h : (d.map Prod.fst).Nodup) :
    ((Nmea2k.mapSet d k v).map Prod.fst).Nodup ∧
    ∀ x ∈ (Nmea2k.mapSet d k v).map Prod.fst, x ∈ d.map Prod.fst ∨ x = k := by
  unfold Nmea2k.mapSet
  split
  · have e : (d.map (fun e => if e.1 = k then (k, v) else e)).map Prod.fst = d.map Prod.fst := by
      rw [List.map_map]
      apply List.map_congr_left
      intro x _
      simp only [Function.comp]
      split
      · rename_i h; exact h.symm
      · rfl
    rw [e]
    exact ⟨h, fun x hx => Or.inl hx⟩
  · rename_i hn
    rw [List.map_append]
    refine ⟨List.nodup_append.mpr ⟨h, by simp, ?_⟩, ?_⟩
    · intro a ha b hb hab
      simp only [List.map_cons, List.map_nil, List.mem_singleton] at hb
      subst hab hb
      obtain ⟨e, he, he'⟩ := List.mem_map.mp ha
      exact hn (List.any_eq_true.mpr ⟨e, he, by simpa using he'⟩)
    · intro x hx
      rcases List.mem_append.mp hx with hx | hx
      · exact Or.inl hx
      · right; simpa using hx

theorem assignName_keys {α : Type} (n : String) (v : α) (fs : List Nmea2k.Field) :
    ∀ (kk : Nat) (dd : List (Nat × α)), (dd.map Prod.fst).Nodup →
      ((Nmea2k.assignName n v kk fs dd).map Prod.fst).Nodup ∧
      ∀ x ∈ (Nmea2k.assignName n v kk fs dd).map Prod.fst, x ∈ dd.map Prod.fst ∨ x < kk + fs.length := by
  induction fs with
  | nil => intro kk dd h; exact ⟨h, fun x hx => Or.inl hx⟩
  | cons f fs ih =>
    intro kk dd h
    unfold Nmea2k.assignName
    split
    · obtain ⟨m1, m2⟩ := dataSet_keys dd kk v h
      obtain ⟨a1, a2⟩ := ih (kk + 1) _ m1
      refine ⟨a1, fun x hx => ?_⟩
      simp only [List.length_cons]
      rcases a2 x hx with hx | hx
      · rcases m2 x hx with hx | hx
        · exact Or.inl hx
        · right; omega
      · right; omega
    · obtain ⟨a1, a2⟩ := ih (kk + 1) _ h
      refine ⟨a1, fun x hx => ?_⟩
      simp only [List.length_cons]
      rcases a2 x hx with hx | hx
      · exact Or.inl hx
      · right; omega

theorem assignAll_keys {α : Type} (fs : List Nmea2k.Field) : ∀ (es : List (String × α)) (dd : List (Nat × α)),
    (dd.map Prod.fst).Nodup → (∀ x ∈ dd.map Prod.fst, x < fs.length) →
      ((es.foldl (fun dd e => Nmea2k.assignName e.1 e.2 0 fs dd) dd).map Prod.fst).Nodup ∧
      ∀ x ∈ (es.foldl (fun dd e => Nmea2k.assignName e.1 e.2 0 fs dd) dd).map Prod.fst, x < fs.length := by
  intro es
  induction es with
  | nil => intro dd h1 h2; exact ⟨h1, h2⟩
  | cons e es ih =>
    intro dd h1 h2
    obtain ⟨a1, a2⟩ := assignName_keys e.1 e.2 fs 0 dd h1
    refine ih _ a1 (fun x hx => ?_)
    rcases a2 x hx with hx | hx
    · exact h2 x hx
    · omega

theorem nodup_bounded {l : List Nat} {n : Nat} (h : l.Nodup) (hb : ∀ x ∈ l, x < n) : l.length ≤ n := by
  have : l ⊆ List.range n := fun x hx => List.mem_range.mpr (hb x hx)
  have := (List.subperm_of_subset h this).length_le
  simpa using this

/-- What an imported message has: the index of the first definition of its PGN, and distinct keys that are
fields of that definition. -/
theorem imported {tbl : List Nmea2k.Pgn} {u : Iface.Str → Nmea2k.CanBoat Val} {l : Iface.Str}
    {r : Nmea2k.CanBoatParsed Val} (h : Nmea2k.fromCanBoat tbl u l = .ok (some r)) :
    ∃ d, Nmea2k.first tbl r.pgn = .ok (r.index, d) ∧ tbl[r.index]? = some d ∧ (r.data.map Prod.fst).Nodup ∧
      ∀ x ∈ r.data.map Prod.fst, x < d.fieldList.length := by
  have hne : tbl ≠ [] := by
    rintro rfl
    simp [Nmea2k.fromCanBoat, Nmea2k.first, Nmea2k.firstFrom, bind, Except.bind] at h
  obtain ⟨i, d, hf, hd, _⟩ := Nmea2k.C33_first tbl (u l).pgn hne
  obtain ⟨j, q, hl, _, _⟩ := Nmea2k.C33_last tbl (u l).pgn hne
  simp only [Nmea2k.fromCanBoat, hf, hl, bind, Except.bind, pure, Except.pure] at h
  split at h
  · injection h with h; cases h
  · injection h with h
    injection h with h
    subst h
    refine ⟨d, hf, hd, ?_⟩
    exact assignAll_keys d.fieldList _ [] (by simp) (by simp)

/-- Print of an imported message: the entries below the number of values. -/
theorem imported_print {u : Iface.Str → Nmea2k.CanBoat Val} {l : Iface.Str} {r : Nmea2k.CanBoatParsed Val}
    (h : Nmea2k.fromCanBoat pgnList u l = .ok (some r)) (verbose : Bool) :
    ∃ d, pgnList[r.index]? = some d ∧ r.data.length ≤ d.fieldList.length ∧
      Nmea2k.print pgnList (Iface.ofCanBoat r) verbose =
        .ok (d.description, Nmea2k.Spec.lines d r.data verbose r.data.length) := by
  obtain ⟨d, _, hd, hn, hb⟩ := imported h
  have hg := Nmea2k.table_noMustInGroup d (List.mem_of_getElem? hd)
  simp only [Nmea2k.noMustInGroup, Bool.and_eq_true, decide_eq_true_eq] at hg
  have hlen := nodup_bounded hn hb
  rw [List.length_map] at hlen
  refine ⟨d, hd, hlen, Nmea2k.print_eq (d := d) hd hg.1 ?_⟩
  intro k hk
  have hk' : k < d.fieldList.length := Nat.lt_of_lt_of_le hk hlen
  unfold Nmea2k.Spec.entryField
  rw [if_pos (Or.inr hk')]
  exact hk'

/-- **C95** (what holds): Print of a played back message names every value of the line whose field number is
below the number of values, so all of them if the line has the first fields of the definition. -/
theorem C95_partial {u : Iface.Str → Nmea2k.CanBoat Val} {l : Iface.Str} {r : Nmea2k.CanBoatParsed Val}
    (h : Nmea2k.fromCanBoat pgnList u l = .ok (some r)) (verbose : Bool) :
    ∃ d lines, pgnList[r.index]? = some d ∧
      Nmea2k.print pgnList (Iface.ofCanBoat r) verbose = .ok (d.description, lines) ∧
      ∀ k f v, d.fieldList[k]? = some f → Nmea2k.Spec.mapGet r.data k = some v → v ≠ .nil →
        ((k, f.name, v) ∈ lines ↔ k < r.data.length) := by
  obtain ⟨d, hd, hlen, hp⟩ := imported_print h verbose
  refine ⟨d, _, hd, hp, fun k f v hf hv hn => ?_⟩
  have hget : DataMap.get r.data k = v := by
    unfold Nmea2k.Spec.mapGet at hv
    unfold Nmea2k.DataMap.get
    cases hx : r.data.find? (fun e => decide (e.1 = k)) with
    | none => rw [hx] at hv; cases hv
    | some e => rw [hx] at hv; injection hv
  have hk : k < d.fieldList.length := (List.getElem?_eq_some_iff.mp hf).1
  have hent : Nmea2k.Spec.entryOf d k = some f := by
    unfold Nmea2k.Spec.entryOf Nmea2k.Spec.entryField
    rw [if_pos (Or.inr hk)]; exact hf
  unfold Nmea2k.Spec.lines
  simp only [List.mem_flatMap, List.mem_range]
  constructor
  · rintro ⟨j, hj, hm⟩
    split at hm
    · simp only [List.mem_singleton, Prod.mk.injEq] at hm; rw [hm.1]; exact hj
    · cases hm
  · intro hk'
    refine ⟨k, hk', ?_⟩
    rw [if_pos (Or.inl (by rw [hget]; exact hn)), hent, hget]
    simp

/-- A line with one value. -/
def positionOnly : Nmea2k.CanBoat Val := ⟨2, 7, 255, 127245, [("Position", .text "5 deg")]⟩

/-- The message played back from it. -/
def positionMsg : Parsed := ⟨⟨2, 127245, 7, 255, 0, ⟨[], []⟩⟩, 76, [(4, .text "5 deg")]⟩

/-- **C95** is false in general: a rudder message with only its position is handed over with that value, but
Print does not show it, verbose or not. -/
theorem C95_false : Iface.fileActs pgnList (fun _ => positionOnly) (some (Signalk.bs "{}")) = [.handed positionMsg] ∧
    Nmea2k.print pgnList positionMsg false = .ok ("Rudder", []) ∧
    Nmea2k.print pgnList positionMsg true = .ok ("Rudder", [(0, "Rudder Instance", .nil)]) :=
  ⟨by decide +kernel, by decide +kernel, by decide +kernel⟩

/-- A line to which `C95_partial` applies with all its values shown. -/
example : Iface.fileActs pgnList (fun _ => (⟨2, 7, 255, 127245,
      [("Direction Order", .text "a"), ("Rudder Instance", .text "b")]⟩ : Nmea2k.CanBoat Val)) (some (Signalk.bs "{}")) =
    [.handed ⟨⟨2, 127245, 7, 255, 0, ⟨[], []⟩⟩, 76, [(1, .text "a"), (0, .text "b")]⟩] := by decide +kernel

/-! ## No panic -/

theorem genuine_print {p : Parsed} (h : Genuine p) (verbose : Bool) : ∃ t, Nmea2k.print pgnList p verbose = .ok t := by
  rcases h with ⟨env, raw, h⟩ | ⟨u, l, r, h, rfl⟩
  · obtain ⟨d, _, h⟩ := Nmea2k.C51_shipped h verbose
    exact ⟨_, h⟩
  · obtain ⟨d, _, _, hp⟩ := imported_print h verbose
    exact ⟨_, hp⟩

theorem genuine_delta (denv : Signalk.Env Val) {p : Parsed} (h : Genuine p) :
    ∃ r, Signalk.delta denv shippedReps MapTable.maps (Signalk.toMsg p) = .ok r := by
  rcases h with ⟨env, raw, h⟩ | ⟨u, l, r, h, rfl⟩
  · exact Signalk.C60_shipped denv h
  · obtain ⟨d, hf, hd, _, _⟩ := imported h
    refine Signalk.C60_delta_partial Signalk.shipped_paths ?_ ?_
    · have := (List.getElem?_eq_some_iff.mp hd).1
      simpa [shippedReps, Signalk.toMsg, Iface.ofCanBoat] using this
    · intro mp m1 g m2 hpgn hmul h0
      have h127 := Signalk.shipped_mult mp m1 g m2 hmul
      have hp : r.pgn = 127503 := by
        have : g.pgn = r.pgn := hpgn
        rw [← this, h127]
      have hac : Nmea2k.first pgnList 127503 = .ok (89, Nmea2k.Table.p89) := by decide +kernel
      rw [hp, hac] at hf
      injection hf with hf
      injection hf with hi _
      have : (Signalk.toMsg (Iface.ofCanBoat r)).index = 89 := hi.symm
      rw [this] at h0
      exact absurd h0 (by decide +kernel)

section
variable {δ β : Type} [DecidableEq β] {P : Program δ β}

theorem fresh_prefix {γ : Type} {a b : List (Hub.Event γ)} (h : Hub.Spec.fresh (a ++ b)) : Hub.Spec.fresh a := by
  intro x y c he
  exact h x (y ++ b) c (by rw [he]; simp)

theorem Ordinary.prefix {a b : List (SysEvent δ β)} (h : Ordinary (a ++ b)) : Ordinary a := by
  obtain ⟨h1, h2, h3, h4⟩ := h
  rw [wsTrace_append] at h1 h3
  rw [stTrace_append] at h2 h4
  exact ⟨fresh_prefix h1, fresh_prefix h2, fun c hc => h3 c (List.mem_append_left _ hc),
    fun c hc => h4 c (List.mem_append_left _ hc)⟩

theorem hub_snoc_error {γ : Type} [DecidableEq γ] {t : List (Hub.Event γ)} {a : Hub.State γ} {e : Hub.Event γ}
    {p : Panic} (h1 : Hub.exec Hub.init t = some (.ok a)) (h2 : Hub.step a e = some (.error p)) :
    Hub.exec Hub.init (t ++ [e]) = some (.error p) := by
  rw [Hub.exec_append h1]; simp only [Hub.exec, h2]

/-- A schedule panics only through `Print` or `Delta` of a message read. -/
theorem sys_no_panic {es : List (SysEvent δ β)} (ho : Ordinary es)
    (hm : ∀ i, ∀ m ∈ readBy i es, P.print m = .ok () ∧ ∃ d, P.delta m = .ok d) (p : Panic) :
    sysExec P Sys.init es ≠ some (.error p) := by
  induction es using List.reverseRecOn with
  | nil => simp [sysExec]
  | append_singleton es e ih =>
    intro h
    have ho' := ho.prefix
    have hm' : ∀ i, ∀ m ∈ readBy i es, P.print m = .ok () ∧ ∃ d, P.delta m = .ok d := by
      intro i m hmem
      exact hm i m (by rw [readBy_append]; exact List.mem_append_left _ hmem)
    cases h1 : sysExec P Sys.init es with
    | none =>
      have : ∀ (s : Sys δ β) (l : List (SysEvent δ β)), sysExec P s l = none → sysExec P s (l ++ [e]) = none := by
        intro s l
        induction l generalizing s with
        | nil => intro h; simp [sysExec] at h
        | cons x l ihl =>
          intro h
          simp only [List.cons_append, sysExec] at h ⊢
          cases hx : sysStep P s x with
          | none => rfl
          | some r =>
            rw [hx] at h
            cases r with
            | error q => cases h
            | ok s2 => exact ihl s2 h
      rw [this _ _ h1] at h
      cases h
    | some r =>
      cases r with
      | error q => exact ih ho' hm' (by
          rw [h1]
          have : ∀ (s : Sys δ β) (l : List (SysEvent δ β)), sysExec P s l = some (.error q) →
              sysExec P s (l ++ [e]) = some (.error q) := by
            intro s l
            induction l generalizing s with
            | nil => intro h; simp [sysExec] at h
            | cons x l ihl =>
              intro h
              simp only [List.cons_append, sysExec] at h ⊢
              cases hx : sysStep P s x with
              | none => rw [hx] at h; cases h
              | some r =>
                rw [hx] at h
                cases r with
                | error q' => exact h
                | ok s2 => exact ihl s2 h
          rw [this _ _ h1] at h
          exact h)
      | ok s =>
        rw [sysExec_append h1] at h
        have hinv := sysInv_exec h1
        have hs : sysStep P s e = some (.error p) := by
          simp only [sysExec] at h
          cases hx : sysStep P s e with
          | none => rw [hx] at h; cases h
          | some r =>
            rw [hx] at h
            cases r with
            | error q => exact h
            | ok s2 => cases h
        have hws : ∀ ev, wsTrace [e] = [ev] → Hub.step s.ws ev ≠ some (.error p) := by
          intro ev hev hstep
          have := hub_snoc_error hinv.ws hstep
          have hf := ho.wsFresh
          have hu := ho.wsNo
          rw [wsTrace_append, hev] at hf hu
          exact Hub.C64_no_panic hf hu p this
        have hst : ∀ ev, stTrace [e] = [ev] → Hub.step s.st ev ≠ some (.error p) := by
          intro ev hev hstep
          have := hub_snoc_error hinv.st hstep
          have hf := ho.stFresh
          have hu := ho.stNo
          rw [stTrace_append, hev] at hf hu
          exact Hub.C64_no_panic hf hu p this
        cases e with
        | read i r => simp only [sysStep] at hs; split at hs <;> cases hs
        | take i =>
          simp only [sysStep] at hs
          split at hs
          · rename_i m hp ht
            have hmem : m ∈ readBy i es := by rw [← hinv.order i, hp]; simp
            obtain ⟨q1, d, q2⟩ := hm' i m hmem
            have : ∃ x, iteration P.sort P.opts P.out P.print P.delta s.stats m = .ok x := by
              unfold iteration
              rw [q1, q2]
              cases shown P.opts m.header <;> exact ⟨_, rfl⟩
            obtain ⟨x, hx⟩ := this
            rw [hx] at hs
            cases hs
          · cases hs
        | act =>
          simp only [sysStep] at hs
          split at hs <;> cases hs
        | statistics c order =>
          simp only [sysStep] at hs
          split at hs
          · split at hs
            · split at hs
              · cases hs
              · rename_i q hq
                injection hs with hs; injection hs with hs; subst hs
                exact hst _ rfl hq
              · cases hs
            · cases hs
          · cases hs
        | delta c order =>
          simp only [sysStep] at hs
          split at hs
          · split at hs
            · split at hs
              · cases hs
              · rename_i q hq
                injection hs with hs; injection hs with hs; subst hs
                exact hws _ rfl hq
              · cases hs
            · cases hs
          · cases hs
        | ws ev =>
          simp only [sysStep] at hs
          split at hs
          · split at hs
            · cases hs
            · rename_i q hq
              injection hs with hs; injection hs with hs; subst hs
              exact hws _ rfl hq
            · cases hs
          · cases hs
        | st ev =>
          simp only [sysStep] at hs
          split at hs
          · split at hs
            · cases hs
            · rename_i q hq
              injection hs with hs; injection hs with hs; subst hs
              exact hst _ rfl hq
            · cases hs
          · cases hs

end

section
variable {β : Type} [DecidableEq β] {sort : List String → List String} {opts : Opts} {out : Outputs}
  {verbose : Bool} {denv : Signalk.Env Val} {marshal : Nat → List (Signalk.Update Val) → Option β}

omit [DecidableEq β] in
theorem shipped_ok {m : Message Body} (h : Genuine (parsedOf m)) (hp : m.body.order.Perm m.body.data) :
    (shippedProgram sort opts out verbose denv marshal).print m = .ok () ∧
    ∃ d, (shippedProgram sort opts out verbose denv marshal).delta m = .ok d := by
  constructor
  · obtain ⟨t, ht⟩ := genuine_print h verbose
    simp only [shippedProgram, ht]
    rfl
  · obtain ⟨r, hr⟩ := genuine_delta denv h
    obtain ⟨r', hr'⟩ := Signalk.delta_ok_perm (msg := Signalk.toMsg (parsedOf m))
      (msg' := Signalk.toMsg (orderedOf m)) rfl rfl (hp.symm.map _) hr
    simp only [shippedProgram, hr']
    exact ⟨_, rfl⟩

/-- **C92.** With the shipped table and mapping file, whatever display options and outputs are chosen,
whatever iteration orders Go picks and however interfaces, consumer, hubs and clients are scheduled, the
consumer and hub goroutines never panic on messages the interfaces made. -/
theorem C92_safe {es : List (SysEvent Body β)} (ho : Ordinary es) (hg : GenuineInput es) (p : Panic) :
    sysExec (shippedProgram sort opts out verbose denv marshal) Sys.init es ≠ some (.error p) :=
  sys_no_panic ho (fun i m hm => shipped_ok (hg i m hm).1 (hg i m hm).2) p

omit [DecidableEq β] in
theorem readBy_internal {i : Nat} {es : List (SysEvent Body β)} (h : ∀ e ∈ es, Internal e) : readBy i es = [] := by
  induction es with
  | nil => rfl
  | cons e es ih =>
    have ih' := ih (fun x hx => h x (by simp [hx]))
    cases e with
    | read j r => exact absurd (h (.read j r) (by simp)) (by simp [Internal])
    | _ => exact ih'

/-- **C92.** And nothing is ever stuck: a message an interface is handing over can always be taken, without
new input and without any client's cooperation. -/
theorem C92_progress {es : List (SysEvent Body β)} (ho : Ordinary es) (hg : GenuineInput es)
    {s : Sys Body β} (h : sysExec (shippedProgram sort opts out verbose denv marshal) Sys.init es = some (.ok s))
    {i : Nat} {m : Message Body} (hp : s.pending i = some m) :
    ∃ es' s', (∀ e ∈ es', Internal e) ∧
      sysExec (shippedProgram sort opts out verbose denv marshal) s es' = some (.ok s') ∧
      s'.consumed = s.consumed ++ [(i, m)] := by
  obtain ⟨es', k1, k2⟩ := C69_progress ho h hp
  rcases k2 with ⟨s', k2, k3⟩ | ⟨p, k2⟩
  · exact ⟨es', s', k1, k2, k3⟩
  · exfalso
    refine C92_safe (sort := sort) (opts := opts) (out := out) (verbose := verbose) (denv := denv)
      (marshal := marshal) (es := es ++ es') (ho.append k1) ?_ p (by rw [sysExec_append h]; exact k2)
    intro j x hx
    rw [readBy_append, readBy_internal k1, List.append_nil] at hx
    exact hg j x hx

/-! ## C93: from the wire to the clients -/


/-- Every delta a client received is the delta of a message some interface read. -/
theorem client_origin {δ : Type} {P : Program δ β} {es : List (SysEvent δ β)} {s : Sys δ β} (ho : Ordinary es)
    (h : sysExec P Sys.init es = some (.ok s)) {c : Hub.Id} (hc : Hub.Spec.registered c (wsTrace es)) {b : β}
    (hb : b ∈ s.ws.got c) : ∃ i m, m ∈ readBy i es ∧ P.delta m = .ok (some b) := by
  have h1 := (C82_client ho h hc).subset hb
  have h2 := List.mem_of_mem_drop h1
  unfold deltasOf at h2
  obtain ⟨m, hm, hd⟩ := List.mem_filterMap.mp h2
  obtain ⟨⟨i, m'⟩, hi, rfl⟩ := List.mem_map.mp hm
  refine ⟨i, m', ?_, ?_⟩
  · rw [← C69_order h i]
    apply List.mem_append_left
    unfold takenFrom
    exact List.mem_map.mpr ⟨(i, m'), List.mem_filter.mpr ⟨hi, by simp⟩, rfl⟩
  · simp only at hd
    split at hd
    · rename_i d hd'; rw [hd', hd]
    · cases hd

omit [DecidableEq β] in
/-- The deltas of one update, from the header and the values. -/
theorem delta_header {m : Message Body} {b : β}
    (h : (shippedProgram sort opts out verbose denv marshal).delta m = .ok (some b)) :
    ∃ values, Signalk.delta denv shippedReps MapTable.maps (Signalk.toMsg (orderedOf m)) =
        .ok (some [⟨m.header.pgn, m.header.source, values⟩]) ∧
      marshal m.body.now [⟨m.header.pgn, m.header.source, values⟩] = some b := by
  simp only [shippedProgram, bind, Except.bind, pure, Except.pure] at h
  cases hr : Signalk.delta denv shippedReps MapTable.maps (Signalk.toMsg (orderedOf m)) with
  | error e => rw [hr] at h; cases h
  | ok r =>
    rw [hr] at h
    simp only at h
    injection h with h
    cases r with
    | none => cases h
    | some u =>
      simp only [Option.bind_some] at h
      have : ∃ values, u = [⟨m.header.pgn, m.header.source, values⟩] := by
        unfold Signalk.delta at hr
        simp only [bind, Except.bind, pure, Except.pure] at hr
        split at hr
        · cases hr
        · split at hr
          · injection hr with hr; injection hr with hr; exact ⟨_, hr.symm⟩
          · injection hr with hr; cases hr
      obtain ⟨values, rfl⟩ := this
      exact ⟨values, rfl, h⟩

/-- The interfaces read what their goroutines hand over; Go picks the iteration order of the data. -/
def Feeds (es : List (SysEvent Body β)) (acts : Nat → List Iface.Act) : Prop :=
  ∀ i, (readBy i es).map parsedOf <+: Iface.handed (acts i) ∧ ∀ m ∈ readBy i es, m.body.order.Perm m.body.data

omit [DecidableEq β] in
theorem handed_all (ps : List Parsed) : Iface.handed (ps.map Iface.Act.handed) = ps := by
  induction ps with
  | nil => rfl
  | cons p ps ih => show p :: Iface.handed (ps.map Iface.Act.handed) = _; rw [ih]

/-- What an interface receives. -/
inductive Source where
  /-- an NGT-1: quiet periods and frames (their contents) -/
  | ngt (frames : List (List Ev × List Byte))
  /-- a CANUSB: complete lines, after whatever was received before (partial messages `m`) -/
  | canusb (fp : List Nat) (m : Canusb.Partials) (p : Canusb.CanPort) (lines : List (List Byte))
  /-- a file: complete lines and the last, unfinished one -/
  | file (unmarshal : Iface.Str → Nmea2k.CanBoat Val) (lines : List Iface.Str) (last : Iface.Str)

/-- What the interface goroutine does. -/
def Source.acts (parse : RawMessage → GoM Parsed) (mem : Nat → List Byte) (g : Nat → Nat) : Source → List Iface.Act
  | .ngt fs => Iface.actisenseActs parse g (fs.flatMap (fun f => f.1 ++ Actisense.stream (NgtSpec.wire f.2)))
  | .canusb fp m p lines =>
    (Iface.canusbActs parse mem g fp m p ((lines.flatMap fun l => l ++ [13]).map Ev.byte)).1
  | .file u ls last => Iface.fileActs pgnList u (some (Iface.content ls last))

/-- The interface cannot crash: no frame or line breaks the reader, no message the decoder. -/
def Source.Good (g : Nat → Nat) : Source → Prop
  | .ngt fs => (∀ f ∈ fs, Actisense.Quiet f.1) ∧
      (∀ f ∈ fs, NgtSpec.verdict f.2 ≠ .crash ∧ NgtSpec.verdict f.2 ≠ .overrun) ∧
      ∀ f ∈ fs, ∀ v, NgtSpec.accepted f.2 = some v → Iface.Harmless v
  | .canusb fp m _ lines => (∀ l ∈ lines, Canusb.IsLine l) ∧
      ∃ outs m', Canusb.receive fp m (lines.map (Canusb.grown g)) = .ok (outs, m') ∧
        ∀ v, some v ∈ outs → Iface.Harmless v
  | .file _ ls last => (∀ l ∈ ls, Iface.ShortLine l) ∧ Iface.ShortLine last

/-- The messages the interface makes of it: the decodings of the acceptable frames of an NGT-1, of the
messages a CANUSB's lines deliver, and the lines of a file that FromCanBoat accepts. -/
def Source.Yields (env : Nmea2k.Env) (g : Nat → Nat) (ps : List Parsed) : Source → Prop
  | .ngt fs => List.Forall₂ (Iface.Decoded env) (fs.filterMap (fun f => NgtSpec.accepted f.2)) ps
  | .canusb fp m _ lines => ∃ outs m', Canusb.receive fp m (lines.map (Canusb.grown g)) = .ok (outs, m') ∧
      List.Forall₂ (Iface.Decoded env) (outs.filterMap id) ps
  | .file u ls last => ∃ as, List.Forall₂ (Iface.Played pgnList u) (Iface.allLines ls last) as ∧
      ps = Iface.handed as

theorem handed_others (as : List Iface.Act) : Iface.handed (Iface.others as) = Iface.handed as := by
  induction as with
  | nil => rfl
  | cons a as ih =>
    cases a with
    | handed m =>
      show m :: Iface.handed (Iface.others as) = m :: Iface.handed as
      rw [ih]
    | claimed x => exact ih
    | _ => exact ih

theorem source_yields {env : Nmea2k.Env} {parse : RawMessage → GoM Parsed}
    (hparse : ∀ m, Nmea2k.ParsePacket pgnList env m (parse m)) (mem : Nat → List Byte) (g : Nat → Nat)
    (src : Source) (h : src.Good g) : src.Yields env g (Iface.handed (src.acts parse mem g)) := by
  cases src with
  | ngt fs =>
    obtain ⟨ps, e1, e2⟩ := Iface.C90_ngt_partial hparse g fs h.1 h.2.1 h.2.2
    simp only [Source.acts, e1, handed_all]
    exact e2
  | canusb fp m p lines =>
    obtain ⟨hl, outs, m', hr, hh⟩ := h
    obtain ⟨⟨ps, e1, e2⟩, _⟩ := Iface.C91_canusb_partial hparse mem g fp m p lines hl hr hh
    refine ⟨outs, m', hr, ?_⟩
    simp only [Source.acts]
    rw [← handed_others, e1, handed_all]
    exact e2
  | file u ls last =>
    exact ⟨_, Iface.C89_play (by decide +kernel) u ls last h.1 h.2, rfl⟩

/-- **C93** (nothing is made up): every delta any client receives, at any moment of any schedule, was computed
from a message that some interface made of what it received, and carries that message's PGN and source. -/
theorem C93_origin {env : Nmea2k.Env} {parse : RawMessage → GoM Parsed}
    (hparse : ∀ m, Nmea2k.ParsePacket pgnList env m (parse m)) (mem : Nat → List Byte) (g : Nat → Nat)
    (sources : Nat → Source) (hgood : ∀ i, (sources i).Good g)
    {es : List (SysEvent Body β)} (ho : Ordinary es) (hfeed : Feeds es (fun i => (sources i).acts parse mem g))
    {s : Sys Body β} (h : sysExec (shippedProgram sort opts out verbose denv marshal) Sys.init es = some (.ok s))
    {c : Hub.Id} (hc : Hub.Spec.registered c (wsTrace es)) {b : β} (hb : b ∈ s.ws.got c) :
    ∃ i ps, (sources i).Yields env g ps ∧ ∃ p ∈ ps, ∃ order now values, order.Perm p.data ∧
      Signalk.delta denv shippedReps MapTable.maps (Signalk.toMsg { p with data := order }) =
        .ok (some [⟨p.header.pgn, p.header.source, values⟩]) ∧
      marshal now [⟨p.header.pgn, p.header.source, values⟩] = some b := by
  obtain ⟨i, m, hm, hd⟩ := client_origin ho h hc hb
  obtain ⟨values, h1, h2⟩ := delta_header hd
  obtain ⟨hpre, hperm⟩ := hfeed i
  exact ⟨i, _, source_yields hparse mem g (sources i) (hgood i), parsedOf m,
    hpre.subset (List.mem_map_of_mem hm), m.body.order, m.body.now, values, hperm m hm, h1, h2⟩

/-- **C93** for NGT-1 adapters: every delta received stems from a frame with a correct checksum, and carries
its PGN and source. -/
theorem C93_ngt {env : Nmea2k.Env} {parse : RawMessage → GoM Parsed}
    (hparse : ∀ m, Nmea2k.ParsePacket pgnList env m (parse m)) (mem : Nat → List Byte) (g : Nat → Nat)
    (frames : Nat → List (List Ev × List Byte)) (hgood : ∀ i, (Source.ngt (frames i)).Good g)
    {es : List (SysEvent Body β)} (ho : Ordinary es)
    (hfeed : Feeds es (fun i => (Source.ngt (frames i)).acts parse mem g))
    {s : Sys Body β} (h : sysExec (shippedProgram sort opts out verbose denv marshal) Sys.init es = some (.ok s))
    {c : Hub.Id} (hc : Hub.Spec.registered c (wsTrace es)) {b : β} (hb : b ∈ s.ws.got c) :
    ∃ i, ∃ f ∈ frames i, ∃ v p order now values, NgtSpec.verdict f.2 = .accept v ∧ Iface.Decoded env v p ∧
      order.Perm p.data ∧
      Signalk.delta denv shippedReps MapTable.maps (Signalk.toMsg { p with data := order }) =
        .ok (some [⟨v.pgn, v.source, values⟩]) ∧
      marshal now [⟨v.pgn, v.source, values⟩] = some b := by
  obtain ⟨i, ps, hy, p, hp, order, now, values, h1, h2, h3⟩ := C93_origin hparse mem g
    (fun i => Source.ngt (frames i)) hgood ho hfeed h hc hb
  obtain ⟨k, hk, hk'⟩ := List.mem_iff_getElem.mp hp
  have e2 : List.Forall₂ (Iface.Decoded env) ((frames i).filterMap (fun f => NgtSpec.accepted f.2)) ps := hy
  have hlen := e2.length_eq
  have hdec := List.Forall₂.get e2 (by omega) hk
  simp only [List.get_eq_getElem] at hdec
  rw [hk'] at hdec
  obtain ⟨f, hf, hf'⟩ := List.mem_filterMap.mp (List.getElem_mem (l := (frames i).filterMap (fun f => NgtSpec.accepted f.2))
    (n := k) (by omega))
  have e3 : p.header.pgn = ((frames i).filterMap (fun f => NgtSpec.accepted f.2))[k].pgn :=
    congrArg MsgView.pgn hdec.1
  have e4 : p.header.source = ((frames i).filterMap (fun f => NgtSpec.accepted f.2))[k].source :=
    congrArg MsgView.source hdec.1
  rw [e3, e4] at h2 h3
  refine ⟨i, f, hf, _, p, order, now, values, ?_, hdec, h1, h2, h3⟩
  unfold NgtSpec.accepted at hf'
  split at hf'
  · rename_i w hw; injection hf' with hf'; exact hw.trans (congrArg _ hf')
  · cases hf'

/-- **C93** (nothing is lost): when the interfaces have read all they receive, the consumer and the hub are
done and a client connected since the first delta has kept up, it has received exactly the deltas of the
messages the interfaces made: those of each interface in the order received, interleaved as the consumer
took them. -/
theorem C93_complete {env : Nmea2k.Env} {parse : RawMessage → GoM Parsed}
    (hparse : ∀ m, Nmea2k.ParsePacket pgnList env m (parse m)) (mem : Nat → List Byte) (g : Nat → Nat)
    (sources : Nat → Source) (hgood : ∀ i, (sources i).Good g)
    {es : List (SysEvent Body β)} (ho : Ordinary es)
    (hall : ∀ i, (readBy i es).map parsedOf = Iface.handed ((sources i).acts parse mem g))
    {s : Sys Body β} (h : sysExec (shippedProgram sort opts out verbose denv marshal) Sys.init es = some (.ok s))
    (hp : ∀ i, s.pending i = none) (ht : s.todo = []) (hpc : s.ws.pc = .idle) (hw : out.websockets = true)
    {c : Hub.Id} (hc : Hub.Spec.registered c (wsTrace es)) (h0 : before c (wsTrace es) = 0)
    (hin : c ∈ s.ws.conns) (hbuf : (s.ws.chan c).buf = []) :
    ∃ taken : List (Nat × Message Body),
      (∀ i, (sources i).Yields env g ((takenFrom i taken).map parsedOf)) ∧
      s.ws.got c = deltasOf (shippedProgram sort opts out verbose denv marshal).delta (taken.map Prod.snd) := by
  refine ⟨s.consumed, fun i => ?_, ?_⟩
  · have hord := C69_order h i
    rw [hp i] at hord
    simp only [Option.toList_none, List.append_nil] at hord
    rw [hord, hall i]
    exact source_yields hparse mem g (sources i) (hgood i)
  · rw [C82_caught_up ho h hc hw hin hbuf hpc ht, h0, List.drop_zero]

end

end Argo.Main
