import Verif.Signalk.Core
import Verif.Signalk.MapTable

set_option autoImplicit false

/-! # C53–C58, C60, C62 -/

namespace Argo.Signalk

open Argo Argo.Signalk.Spec

variable {α : Type} {env : Env α} {reps : List Nat} {maps : List Mapping} {msg : Msg α}

/-- The number of repeating fields of the message's definition. -/
def rep (reps : List Nat) (msg : Msg α) : Nat := reps[msg.index]?.getD 0

/-! ## When Delta returns -/

theorem delta_ok {r : Option (List (Update α))} (h : delta env reps maps msg = .ok r) :
    ∃ acc, acc = msg.data.foldl (entryPure env maps msg (rep reps msg)) ⟨[], []⟩ ∧
      r = if acc.values ≠ [] then some [⟨msg.pgn, msg.source, acc.values⟩] else none := by
  have hl : deltaLoop env reps maps msg msg.data ⟨[], []⟩ =
      .ok (msg.data.foldl (entryPure env maps msg (rep reps msg)) ⟨[], []⟩) := by
    by_cases hd : msg.data = []
    · rw [hd]; rfl
    · by_cases hb : ∃ pg ∈ pairs maps, bad reps msg pg
      · obtain ⟨e, he⟩ := (deltaLoop_eq (env := env) msg.data ⟨[], []⟩).2 hd hb
        unfold delta at h
        rw [he] at h
        cases h
      · exact (deltaLoop_eq msg.data ⟨[], []⟩).1 (fun pg hpg hbad => hb ⟨pg, hpg, hbad⟩)
  refine ⟨_, rfl, ?_⟩
  unfold delta at h
  rw [hl] at h
  simp only [bind, Except.bind, pure, Except.pure] at h
  split at h
  · rename_i hv
    rw [if_pos hv]
    exact (Except.ok.inj h).symm
  · rename_i hv
    rw [if_neg hv]
    exact (Except.ok.inj h).symm

/-- The values of a result. -/
def valuesOf (r : Option (List (Update α))) : List (Str × Value α) :=
  match r with
  | none => []
  | some us => us.flatMap (fun u => u.values)

theorem delta_values {r : Option (List (Update α))} (h : delta env reps maps msg = .ok r) :
    valuesOf r = (msg.data.foldl (entryPure env maps msg (rep reps msg)) ⟨[], []⟩).values := by
  obtain ⟨acc, ha, hr⟩ := delta_ok h
  rw [← ha, hr]
  by_cases hv : acc.values = []
  · rw [if_neg (by simpa using hv), hv]; rfl
  · rw [if_pos hv]; simp [valuesOf]

theorem delta_facts {r : Option (List (Update α))} (h : delta env reps maps msg = .ok r)
    (hnd : (msg.data.map Prod.fst).Nodup) :
    (∃ src : List (Int × Option α), src.Sublist msg.data ∧
      plainPart (valuesOf r) = src.filterMap (contribution env (pairs maps) msg (rep reps msg)) ∧
      ∀ e ∈ msg.data, ¬ consumed (pairs maps) msg.pgn e.1 → e ∈ src) ∧
    ∀ t ∈ textPart (valuesOf r), TextFrom env msg (pairs maps) t := by
  obtain ⟨extra, L⟩ := loop_facts (env := env) (msg := msg) (rpt := rep reps msg) (pairs maps) msg.data
    ⟨[], []⟩ (by simp) hnd
  have hv : valuesOf r = extra := by
    rw [delta_values h]
    exact L.values
  rw [hv]
  obtain ⟨src, h1, h2, h3⟩ := L.sub
  exact ⟨⟨src, h1, h2, fun e he hc => h3 e he rfl hc⟩, L.text⟩

theorem mem_plainPart {vs : List (Str × Value α)} {p : Str} {v : α} :
    (p, v) ∈ plainPart vs ↔ (p, Value.plain v) ∈ vs := by
  unfold plainPart
  rw [List.mem_filterMap]
  constructor
  · rintro ⟨⟨q, w⟩, hm, h⟩
    cases w with
    | plain w => simp only [Option.some.injEq, Prod.mk.injEq] at h; rw [← h.1, ← h.2]; exact hm
    | text s => cases h
  · intro h; exact ⟨_, h, rfl⟩

theorem mem_textPart {vs : List (Str × Value α)} {p s : Str} :
    (p, s) ∈ textPart vs ↔ (p, Value.text s) ∈ vs := by
  unfold textPart
  rw [List.mem_filterMap]
  constructor
  · rintro ⟨⟨q, w⟩, hm, h⟩
    cases w with
    | text w => simp only [Option.some.injEq, Prod.mk.injEq] at h; rw [← h.1, ← h.2]; exact hm
    | plain s => cases h
  · intro h; exact ⟨_, h, rfl⟩

theorem mem_pairs {mp : Mapping} {g : Group} : (mp, g) ∈ pairs maps ↔ mp ∈ maps ∧ g ∈ mp.groups := by
  unfold pairs
  simp only [List.mem_flatMap, List.mem_map]
  constructor
  · rintro ⟨a, ha, b, hb, h⟩; cases h; exact ⟨ha, hb⟩
  · rintro ⟨h1, h2⟩; exact ⟨mp, h1, g, h2, rfl⟩

/-! ## C57 -/

/-- Delta gives an error exactly when there is no value; otherwise one update, with the PGN and source
of the message. -/
theorem C57_update {r : Option (List (Update α))} (h : delta env reps maps msg = .ok r) :
    (r = none ↔ valuesOf r = []) ∧
    ∀ us, r = some us → ∃ u, us = [u] ∧ u.pgn = msg.pgn ∧ u.source = msg.source ∧ u.values ≠ [] := by
  obtain ⟨acc, _, hr⟩ := delta_ok h
  rw [hr]
  by_cases hv : acc.values = []
  · rw [if_neg (by simpa using hv)]
    exact ⟨⟨fun _ => rfl, fun _ => rfl⟩, fun us h => nomatch h⟩
  · rw [if_pos hv]
    refine ⟨⟨fun h => (nomatch h), fun h => ?_⟩, fun us hus => ?_⟩
    · simp [valuesOf] at h; exact absurd h hv
    · cases hus; exact ⟨_, rfl, rfl, rfl, hv⟩

/-! ## C53, C54 -/

/-- Where every value of a delta comes from.  (Partial: the conditions of the group of a fieldset are
not checked.) -/
theorem C53_delta_partial {r : Option (List (Update α))} (h : delta env reps maps msg = .ok r)
    (hnd : (msg.data.map Prod.fst).Nodup) :
    (∀ p v, (p, Value.plain v) ∈ valuesOf r → ∃ k mp g, (k, some v) ∈ msg.data ∧ mp ∈ maps ∧
      g ∈ mp.groups ∧ g.pgn = msg.pgn ∧ names g (rep reps msg) k ∧ accepted env msg.data g.conditions ∧
      p = pathFor env msg.data (rep reps msg) k mp g ∧ p ≠ []) ∧
    (∀ p s, (p, Value.text s) ∈ valuesOf r → ∃ mp g, mp ∈ maps ∧ g ∈ mp.groups ∧ g.pgn = msg.pgn ∧
      g.fieldset.fields ≠ [] ∧ complete env msg.data g.fieldset ∧ p = dotted mp.path ∧ p ≠ []) := by
  obtain ⟨⟨src, hs, hp, _⟩, ht⟩ := delta_facts h hnd
  constructor
  · intro p v hm
    rw [← mem_plainPart, hp, List.mem_filterMap] at hm
    obtain ⟨e, he, hc⟩ := hm
    unfold contribution at hc
    cases hf : (pairs maps).find? (fun pg => @decide (applies env msg (rep reps msg) e.1 pg) (Classical.propDecidable _)) with
    | none => rw [hf] at hc; cases hc
    | some pg =>
      rw [hf] at hc
      have ha : applies env msg (rep reps msg) e.1 pg := by
        have := List.find?_some hf
        simpa using this
      have hmem := List.mem_of_find?_eq_some hf
      simp only [Option.bind_some] at hc
      obtain ⟨k, x⟩ := e
      cases x with
      | none => cases hc
      | some w =>
        simp only [Option.bind_some] at hc
        split at hc
        · cases hc
        · rename_i hne
          simp only [Option.some.injEq, Prod.mk.injEq] at hc
          obtain ⟨rfl, rfl⟩ := hc
          obtain ⟨h1, h2⟩ := mem_pairs.mp (show (pg.1, pg.2) ∈ pairs maps from hmem)
          exact ⟨k, pg.1, pg.2, hs.subset he, h1, h2, ha.1, ha.2.1, ha.2.2, rfl, hne⟩
  · intro p s hm
    obtain ⟨pg, hmem, h1, h2, h3, h4, h5⟩ := ht (p, s) (mem_textPart.mpr hm)
    obtain ⟨m1, m2⟩ := mem_pairs.mp (show (pg.1, pg.2) ∈ pairs maps from hmem)
    cases h5
    exact ⟨pg.1, pg.2, m1, m2, h1, h2, h3, rfl, h4⟩

/-- A data field contributes at most one plain value: the plain values come, in order, one each from
some of the data fields, which are distinct. -/
theorem C54_once {r : Option (List (Update α))} (h : delta env reps maps msg = .ok r)
    (hnd : (msg.data.map Prod.fst).Nodup) :
    ∃ src : List (Int × α), (src.map Prod.fst).Nodup ∧
      (∀ e ∈ src, (e.1, some e.2) ∈ msg.data) ∧
      (plainPart (valuesOf r)).map Prod.snd = src.map Prod.snd := by
  obtain ⟨⟨src, hs, hp, hin⟩, _⟩ := delta_facts h hnd
  clear hin
  have hfst : ∀ e p v, contribution env (pairs maps) msg (rep reps msg) e = some (p, v) → e.2 = some v := by
    intro e p v hc
    unfold contribution at hc
    rw [Option.bind_eq_some_iff] at hc
    obtain ⟨pg, _, hc⟩ := hc
    rw [Option.bind_eq_some_iff] at hc
    obtain ⟨w, hw, hc⟩ := hc
    split at hc
    · cases hc
    · simp only [Option.some.injEq, Prod.mk.injEq] at hc
      rw [hw, hc.2]
  refine ⟨src.filterMap (fun e => (contribution env (pairs maps) msg (rep reps msg) e).map
    (fun c => (e.1, c.2))), ?_, ?_, ?_⟩
  · have hnd' : (src.map Prod.fst).Nodup := hnd.sublist (hs.map _)
    refine List.Nodup.sublist ?_ hnd'
    clear hp hs hnd'
    induction src with
    | nil => simp
    | cons e src ih =>
      rw [List.filterMap_cons]
      cases contribution env (pairs maps) msg (rep reps msg) e with
      | none => exact ih.cons _
      | some c => simpa using ih
  · intro e he
    rw [List.mem_filterMap] at he
    obtain ⟨a, ha, hc⟩ := he
    cases hca : contribution env (pairs maps) msg (rep reps msg) a with
    | none => rw [hca] at hc; cases hc
    | some c =>
      rw [hca] at hc
      simp only [Option.map_some, Option.some.injEq] at hc
      subst hc
      have := hfst a c.1 c.2 hca
      have hm := hs.subset ha
      obtain ⟨k, x⟩ := a
      simp only at this
      subst this
      exact hm
  · rw [hp, List.map_filterMap, List.map_filterMap]
    congr 1
    funext e
    cases contribution env (pairs maps) msg (rep reps msg) e <;> rfl

/-! ## C55 -/

/-- A non-nil data field that no fieldset of the PGN can consume and that some parameter group applies
to is reported, with the path of the first such group in file order. -/
theorem C55_reported {r : Option (List (Update α))} (h : delta env reps maps msg = .ok r)
    (hnd : (msg.data.map Prod.fst).Nodup) {k : Int} {v : α} (hk : (k, some v) ∈ msg.data)
    (hc : ¬ consumed (pairs maps) msg.pgn k) {pre post : List (Mapping × Group)} {mp : Mapping} {g : Group}
    (hsplit : pairs maps = pre ++ (mp, g) :: post)
    (hpre : ∀ pg ∈ pre, ¬ applies env msg (rep reps msg) k pg)
    (happ : applies env msg (rep reps msg) k (mp, g))
    (hpath : pathFor env msg.data (rep reps msg) k mp g ≠ []) :
    (pathFor env msg.data (rep reps msg) k mp g, Value.plain v) ∈ valuesOf r := by
  obtain ⟨⟨src, hs, hp, hin⟩, _⟩ := delta_facts h hnd
  rw [← mem_plainPart, hp, List.mem_filterMap]
  refine ⟨(k, some v), hin _ hk hc, ?_⟩
  unfold contribution
  have : (pairs maps).find? (fun pg => @decide (applies env msg (rep reps msg) k pg)
      (Classical.propDecidable _)) = some (mp, g) := by
    rw [hsplit, List.find?_append, List.find?_eq_none.mpr (fun pg hpg => by simpa using hpre pg hpg),
      List.find?_cons_of_pos (by simpa using happ)]
    rfl
  rw [this]
  simp only [Option.bind_some]
  rw [if_neg hpath]

/-- Without fieldsets for the PGN the delta is exactly the contributions of the data fields, in the
order in which the map is walked. -/
theorem C55_exact {r : Option (List (Update α))} (h : delta env reps maps msg = .ok r)
    (hnd : (msg.data.map Prod.fst).Nodup)
    (hf : ∀ mp ∈ maps, ∀ g ∈ mp.groups, g.pgn = msg.pgn → g.fieldset.fields = []) :
    valuesOf r = (msg.data.filterMap (contribution env (pairs maps) msg (rep reps msg))).map
      (fun c => (c.1, Value.plain c.2)) := by
  have hnc : ∀ k, ¬ consumed (pairs maps) msg.pgn k := by
    rintro k ⟨pg, hpg, h1, h2, _⟩
    obtain ⟨m1, m2⟩ := mem_pairs.mp (show (pg.1, pg.2) ∈ pairs maps from hpg)
    exact h2 (hf _ m1 _ m2 h1)
  obtain ⟨⟨src, hs, hp, hin⟩, ht⟩ := delta_facts h hnd
  have hsrc : src = msg.data := by
    have hnd' := (List.pairwise_map.mp hnd).imp (fun h h' => h (congrArg Prod.fst h'))
    exact hs.eq_of_length_le (List.Nodup.length_le_of_subset hnd' (fun e he => hin e he (hnc _)))
  subst hsrc
  have htx : textPart (valuesOf r) = [] := by
    rw [List.eq_nil_iff_forall_not_mem]
    intro t htm
    obtain ⟨pg, hpg, h1, h2, _⟩ := ht t htm
    obtain ⟨m1, m2⟩ := mem_pairs.mp (show (pg.1, pg.2) ∈ pairs maps from hpg)
    exact h2 (hf _ m1 _ m2 h1)
  rw [← hp]
  generalize valuesOf r = vs at htx
  clear hp ht hs hin
  induction vs with
  | nil => rfl
  | cons e vs ih =>
    obtain ⟨p, w⟩ := e
    cases w with
    | plain v =>
      have e1 : plainPart ((p, Value.plain v) :: vs) = (p, v) :: plainPart vs := rfl
      have e2 : textPart ((p, Value.plain v) :: vs) = textPart vs := rfl
      rw [e2] at htx
      rw [e1, List.map_cons, ← ih htx]
    | text s =>
      have e2 : textPart ((p, Value.text s) :: vs) = (p, s) :: textPart vs := rfl
      rw [e2] at htx; cases htx

/-! ## C58 -/

/-- Conditions are examined up to the first unknown operation. -/
theorem C58_exact (data : Data α) (cs : List Condition) :
    conditionsMatch env data cs = true ↔ accepted env data cs := conditionsMatch_iff data cs

/-- With known operations only: the conjunction.  (Partial: unknown operations accept, see
`C58_false_unknown`; the comparison is of texts, see `C58_false_text`.) -/
theorem C58_conjunction_partial (data : Data α) {cs : List Condition}
    (hk : ∀ c ∈ cs, knownOp c.op = true) :
    conditionsMatch env data cs = true ↔ ∀ c ∈ cs, holds env data c := by
  rw [conditionsMatch_iff]
  unfold accepted
  have : cs.takeWhile (fun c => knownOp c.op) = cs := by
    clear * - hk
    induction cs with
    | nil => rfl
    | cons c cs ih =>
      rw [List.takeWhile_cons_of_pos (by simpa using hk c (by simp)), ih (fun x hx => hk x (by simp [hx]))]
  rw [this]

/-- An environment for examples: values are strings. -/
def strEnv : Env Str where
  sprint := id
  isEmpty := fun v => v.isEmpty
  asTime := fun _ => none
  render := fun _ => []

/-- An unknown operation makes the group match although a later condition fails. -/
theorem C58_false_unknown : ∃ (data : Data Str) (cs : List Condition),
    conditionsMatch strEnv data cs = true ∧ ∃ c ∈ cs, knownOp c.op = true ∧ ¬ holds strEnv data c := by
  refine ⟨[(1, some (bs "a"))], [⟨bs "ne", 1, bs "a"⟩, ⟨bs "eq", 1, bs "b"⟩], by decide +kernel,
    ⟨bs "eq", 1, bs "b"⟩, by simp, by decide +kernel, ?_⟩
  intro h
  exact absurd (h.1 rfl) (by decide +kernel)

/-- Numbers are compared as texts: 10 is below 9. -/
theorem C58_false_text : conditionsMatch strEnv [(1, some (bs "10"))] [⟨bs "lt", 1, bs "9"⟩] = true ∧
    conditionsMatch strEnv [(1, some (bs "10"))] [⟨bs "gt", 1, bs "9"⟩] = false := by decide +kernel

/-! ## C60 -/

/-- Delta panics exactly when there is a data field and a parameter group for the PGN whose path has
fewer than two bytes, whose definition index is outside the table, or that has a multiplier while the
definition has no repeating fields. -/
theorem C60_exact : (∃ e, delta env reps maps msg = .error e) ↔
    msg.data ≠ [] ∧ ∃ mp ∈ maps, ∃ g ∈ mp.groups, bad reps msg (mp, g) := by
  constructor
  · rintro ⟨e, he⟩
    by_contra hn
    have hl : deltaLoop env reps maps msg msg.data ⟨[], []⟩ =
        .ok (msg.data.foldl (entryPure env maps msg (reps[msg.index]?.getD 0)) ⟨[], []⟩) := by
      by_cases hd : msg.data = []
      · rw [hd]; rfl
      · refine (deltaLoop_eq msg.data ⟨[], []⟩).1 (fun pg hpg hb => hn ⟨hd, ?_⟩)
        obtain ⟨m1, m2⟩ := mem_pairs.mp (show (pg.1, pg.2) ∈ pairs maps from hpg)
        exact ⟨pg.1, m1, pg.2, m2, hb⟩
    unfold delta at he
    rw [hl] at he
    simp only [bind, Except.bind] at he
    split at he <;> cases he
  · rintro ⟨hd, mp, m1, g, m2, hb⟩
    obtain ⟨e, he⟩ := (deltaLoop_eq (env := env) msg.data ⟨[], []⟩).2 hd
      ⟨(mp, g), mem_pairs.mpr ⟨m1, m2⟩, hb⟩
    exact ⟨e, by unfold delta; rw [he]; rfl⟩

/-- The part of C60 that holds: no panic when every path has two bytes, the message's index is in the
table, and multipliers are only used for PGNs with repeating fields. -/
theorem C60_delta_partial (hp : ∀ mp ∈ maps, 2 ≤ mp.path.length) (hi : msg.index < reps.length)
    (hm : ∀ mp ∈ maps, ∀ g ∈ mp.groups, g.pgn = msg.pgn → hasMult g → reps[msg.index]? ≠ some 0) :
    ∃ r, delta env reps maps msg = .ok r := by
  cases h : delta env reps maps msg with
  | ok r => exact ⟨r, rfl⟩
  | error e =>
    obtain ⟨_, mp, m1, g, m2, hpgn, hb⟩ := C60_exact.mp ⟨e, h⟩
    rcases hb with hb | hb | ⟨hb, hb'⟩
    · have := hp mp m1; simp only at hb; omega
    · omega
    · exact absurd hb' (hm mp m1 g m2 hpgn hb)

/-- A multiplier on a PGN without repeating fields, or a one-byte path, crash Delta. -/
theorem C60_false :
    delta strEnv [0] [⟨bs "~/a/{i}", [⟨7, ⟨[], []⟩, bs "1", bs "i", bs "0", [], [], []⟩]⟩]
      ⟨7, 0, 0, [(1, some (bs "x"))]⟩ = .error .divZero ∧
    delta strEnv [0] [⟨bs "~", [⟨7, ⟨[], []⟩, bs "1", [], [], [], [], []⟩]⟩]
      ⟨7, 0, 0, [(1, some (bs "x"))]⟩ = .error .slice := by decide +kernel

/-! ## C62 -/

/-- merge has exactly the keys of both maps, the right value winning. -/
theorem C62_merge {u v : BoolMap} (hu : (u.map Prod.fst).Nodup) (hv : (v.map Prod.fst).Nodup) :
    ((merge u v).map Prod.fst).Nodup ∧
    ∀ k, mapFind (merge u v) k = match mapFind v k with | some b => some b | none => mapFind u k := by
  refine ⟨merge_keys u v, fun k => ?_⟩
  rw [merge_find hu hv]
  cases mapFind v k <;> rfl

example : mapFind (merge [(1, true), (2, true)] [(2, false), (3, true)]) 2 = some false ∧
    mapFind (merge [(1, true), (2, true)] [(2, false), (3, true)]) 1 = some true := by decide

/-! ## Examples: a message to which the theorems apply -/

/-- Wind data of the program's tests. -/
def windMsg : Msg Str := ⟨130306, 35, 0, [(0, some (bs "1")), (1, some (bs "5.2")), (2, some (bs "0.7")),
  (3, some (bs "Apparent"))]⟩

example : delta strEnv [0] MapTable.maps windMsg = .ok (some [⟨130306, 35,
    [(bs "environment.wind.speedApparent", .plain (bs "5.2")),
     (bs "environment.wind.angleApparent", .plain (bs "0.7"))]⟩]) ∧
    (windMsg.data.map Prod.fst).Nodup := by decide +kernel

/-- The same wind relative to north matches no condition: an error. -/
example : delta strEnv [0] MapTable.maps { windMsg with data := [(1, some (bs "5.2")), (3, some (bs "True"))] } =
    .ok none := by decide +kernel

/-- Hypotheses of C55 for the wind speed. -/
example : ∃ pre post mp g, pairs MapTable.maps = pre ++ (mp, g) :: post ∧
    (∀ pg ∈ pre, pg.2.pgn ≠ windMsg.pgn) ∧ g.pgn = windMsg.pgn ∧ names g 0 1 ∧
    conditionsMatch strEnv windMsg.data g.conditions = true ∧
    ¬ (∃ pg ∈ pairs MapTable.maps, pg.2.pgn = windMsg.pgn ∧ pg.2.fieldset.fields ≠ []) :=
  ⟨(pairs MapTable.maps).take 35, (pairs MapTable.maps).drop 36, MapTable.m33,
    MapTable.m33.groups.headD default, by decide +kernel⟩

/-- The conditions of a fieldset's group are not checked: a value is reported although they fail. -/
theorem C53_false : ∃ (maps : List Mapping) (msg : Msg Str) (us : List (Update Str)),
    delta strEnv [0] maps msg = .ok (some us) ∧ valuesOf (some us) ≠ [] ∧
    ∀ mp ∈ maps, ∀ g ∈ mp.groups, conditionsMatch strEnv msg.data g.conditions = false := by
  refine ⟨[⟨bs "~/t", [⟨7, ⟨bs "datetime", [(bs "date", 1)]⟩, [], [], [], [], [],
      [⟨bs "eq", 1, bs "no"⟩]⟩]⟩], ⟨7, 0, 0, [(1, some (bs "x"))]⟩,
    [⟨7, 0, [(bs "t", .text [])]⟩], by decide +kernel⟩

end Argo.Signalk
