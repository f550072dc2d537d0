import Verif.Signalk.Lemmas

set_option autoImplicit false

/-! # What Delta computes -/

namespace Argo.Signalk

open Argo Argo.Signalk.Spec

variable {α : Type} {env : Env α} {reps : List Nat} {maps : List Mapping} {msg : Msg α}

/-! ## Conditions -/

theorem strLt_iff : ∀ (a b : Str), strLt a b = true ↔ a < b
  | [], [] => by simp [strLt]
  | _ :: _, [] => by simp [strLt]
  | [], _ :: _ => by simp [strLt]
  | a :: as, b :: bs => by
    unfold strLt
    by_cases h : a = b
    · rw [if_pos h, strLt_iff as bs, h]; simp
    · rw [if_neg h]
      simp only [decide_eq_true_eq, List.cons_lt_cons_iff]
      exact ⟨Or.inl, fun h' => h'.elim id (fun h' => absurd h'.1 h)⟩

theorem conditionsMatch_iff (data : Data α) : ∀ (cs : List Condition),
    conditionsMatch env data cs = true ↔ accepted env data cs := by
  intro cs
  induction cs with
  | nil => simp [conditionsMatch, accepted]
  | cons x xs ih =>
    have key : ∀ (P : Prop) [Decidable P], knownOp x.op = true → (P ↔ ¬ holds env data x) →
        ((if P then false else conditionsMatch env data xs) = true ↔ accepted env data (x :: xs)) := by
      intro P _ hk hP
      have ha : accepted env data (x :: xs) ↔ holds env data x ∧ accepted env data xs := by
        unfold accepted
        rw [List.takeWhile_cons_of_pos (by simpa using hk)]
        simp
      rw [ha]
      by_cases h : P
      · rw [if_pos h]
        simp [(hP.mp h)]
      · rw [if_neg h, ih]
        have : holds env data x := by
          by_contra hn; exact h (hP.mpr hn)
        simp [this]
    have d1 : (bs "eq" : Str) = [101, 113] := by decide +kernel
    have d2 : (bs "lt" : Str) = [108, 116] := by decide +kernel
    have d3 : (bs "gt" : Str) = [103, 116] := by decide +kernel
    have d4 : (bs "le" : Str) = [108, 101] := by decide +kernel
    have d5 : (bs "ge" : Str) = [103, 101] := by decide +kernel
    unfold conditionsMatch
    simp only
    by_cases h1 : x.op = bs "eq"
    · rw [if_pos h1]
      refine key _ (by simp [knownOp, h1]) ?_
      simp [holds, h1, d1, d2, d3, d4, d5]
    rw [if_neg h1]
    by_cases h2 : x.op = bs "lt"
    · rw [if_pos h2]
      refine key _ (by simp [knownOp, h2]) ?_
      simp only [strLt_iff]
      simp [holds, h2, d1, d2, d3, d4, d5]
    rw [if_neg h2]
    by_cases h3 : x.op = bs "gt"
    · rw [if_pos h3]
      refine key _ (by simp [knownOp, h3]) ?_
      simp only [strLt_iff]
      simp [holds, h3, d1, d2, d3, d4, d5]
    rw [if_neg h3]
    by_cases h4 : x.op = bs "le"
    · rw [if_pos h4]
      refine key _ (by simp [knownOp, h4]) ?_
      simp only [strLt_iff]
      simp [holds, h4, d1, d2, d3, d4, d5]
    rw [if_neg h4]
    by_cases h5 : x.op = bs "ge"
    · rw [if_pos h5]
      refine key _ (by simp [knownOp, h5]) ?_
      simp only [strLt_iff]
      simp [holds, h5, d1, d2, d3, d4, d5]
    rw [if_neg h5]
    have : knownOp x.op = false := by simp [knownOp, h1, h2, h3, h4, h5]
    unfold accepted
    rw [List.takeWhile_cons_of_neg (by simp [this])]
    simp

/-! ## merge and the fieldsets -/

theorem merge_keys_aux {β : Type} (r : List (Int × β)) : ∀ d : List (Int × β), (d.map Prod.fst).Nodup →
    ((r.foldl (fun r e => mapPut r e.1 e.2) d).map Prod.fst).Nodup := by
  induction r with
  | nil => intro d h; exact h
  | cons e r ih => intro d h; exact ih _ (mapPut_keys h _ _)

theorem merge_keys (u v : BoolMap) : ((merge u v).map Prod.fst).Nodup :=
  merge_keys_aux v _ (merge_keys_aux u [] (by simp))

theorem merge_find {u v : BoolMap} (hu : (u.map Prod.fst).Nodup) (hv : (v.map Prod.fst).Nodup) (k : Int) :
    mapFind (merge u v) k = (mapFind v k).or (mapFind u k) := by
  unfold merge
  rw [foldl_mapPut v _ hv, foldl_mapPut u _ hu]
  simp [mapFind]

/-- The fields consumed by parse: none, or the date and the time field. -/
theorem parse_used (fs : Fieldset) (data : Data α) :
    ((fs.parse env data).2 = [] ∧ (fs.parse env data).1 = []) ∨
    (((fs.parse env data).2.map Prod.fst).Nodup ∧
      ∀ k, mapFind (fs.parse env data).2 k =
        if k = fs.lookup (bs "date") ∨ k = fs.lookup (bs "time") then some true else none) := by
  unfold Fieldset.parse
  simp only
  split
  · split
    · right
      refine ⟨mapPut_keys (mapPut_keys (by simp) _ _) _ _, ?_⟩
      intro k
      simp only [mapFind_mapPut]
      by_cases h1 : k = fs.lookup (bs "time")
      · rw [if_pos h1, if_pos (Or.inr h1)]
      · rw [if_neg h1]
        by_cases h2 : k = fs.lookup (bs "date")
        · rw [if_pos h2, if_pos (Or.inl h2)]
        · rw [if_neg h2, if_neg (by simp [h1, h2])]; rfl
    · exact Or.inl ⟨rfl, rfl⟩
  · exact Or.inl ⟨rfl, rfl⟩

theorem parse_keys (fs : Fieldset) (data : Data α) : ((fs.parse env data).2.map Prod.fst).Nodup := by
  rcases parse_used (env := env) fs data with ⟨h, _⟩ | ⟨h, _⟩
  · rw [h]; simp
  · exact h

theorem merge_get {u : BoolMap} (hu : (u.map Prod.fst).Nodup) (fs : Fieldset) (data : Data α) (k : Int) :
    (merge u (fs.parse env data).2).get k = true ↔
      u.get k = true ∨ ((fs.parse env data).2 ≠ [] ∧
        (k = fs.lookup (bs "date") ∨ k = fs.lookup (bs "time"))) := by
  unfold BoolMap.get
  rw [merge_find hu (parse_keys fs data)]
  rcases parse_used (env := env) fs data with ⟨h, _⟩ | ⟨_, h⟩
  · rw [h]; simp [mapFind]
  · have hne : (fs.parse env data).2 ≠ [] := by
      intro h0
      have := h (fs.lookup (bs "date"))
      rw [h0] at this
      simp [mapFind] at this
    rw [h k]
    by_cases hk : k = fs.lookup (bs "date") ∨ k = fs.lookup (bs "time")
    · rw [if_pos hk]; simp [hne, hk]
    · rw [if_neg hk]; simp [hk]

theorem hasAll_iff (fs : Fieldset) (data : Data α) (u : BoolMap) :
    fs.hasAll env data u = true ↔ complete env data fs ∧ ∀ f ∈ fs.fields, u.get f.2 = false := by
  unfold Fieldset.hasAll complete
  rw [List.all_eq_true]
  constructor
  · intro h
    refine ⟨fun f hf => ?_, fun f hf => ?_⟩
    · have := h f hf
      simp only [Bool.not_eq_true', Bool.or_eq_false_iff] at this
      cases hd : data.get f.2 with
      | none => rw [hd] at this; simp at this
      | some v => rw [hd] at this; exact ⟨v, rfl, this.2⟩
    · have := h f hf
      simp only [Bool.not_eq_true', Bool.or_eq_false_iff] at this
      exact this.1
  · rintro ⟨h1, h2⟩ f hf
    obtain ⟨v, hv, he⟩ := h1 f hf
    rw [hv, h2 f hf]
    simp [he]

/-! ## One step -/

/-- The three things a group can do for a data field. -/
theorem step_cases (rpt : Nat) (k : Int) (x : Option α) (acc : Acc α) (pg : Mapping × Group) :
    (groupPure env msg rpt k x acc pg = acc ∧ ¬ (applies env msg rpt k pg ∧ acc.used.get k = false)) ∨
    (applies env msg rpt k pg ∧ acc.used.get k = false ∧
      groupPure env msg rpt k x acc pg = ⟨mapPut acc.used k true, acc.values ++ (match x with
        | some v => if pathFor env msg.data rpt k pg.1 pg.2 = [] then [] else
            [(pathFor env msg.data rpt k pg.1 pg.2, .plain v)]
        | none => [])⟩) ∨
    (pg.2.pgn = msg.pgn ∧ ¬ (names pg.2 rpt k ∧ acc.used.get k = false) ∧
      pg.2.fieldset.fields ≠ [] ∧ complete env msg.data pg.2.fieldset ∧
      (∀ f ∈ pg.2.fieldset.fields, acc.used.get f.2 = false) ∧
      groupPure env msg rpt k x acc pg = ⟨merge acc.used (pg.2.fieldset.parse env msg.data).2, acc.values ++
        if dotted pg.1.path = [] then []
        else [(dotted pg.1.path, .text (pg.2.fieldset.parse env msg.data).1)]⟩) := by
  unfold groupPure applies
  by_cases hp : pg.2.pgn = msg.pgn
  · have hpn : ¬ (pg.2.pgn ≠ msg.pgn) := fun h => h hp
    rw [if_neg hpn]
    by_cases hn : names pg.2 rpt k ∧ acc.used.get k = false
    · rw [if_pos hn]
      by_cases hc : conditionsMatch env msg.data pg.2.conditions = true
      · rw [if_pos hc]
        exact Or.inr (Or.inl ⟨⟨hp, hn.1, (conditionsMatch_iff _ _).mp hc⟩, hn.2, rfl⟩)
      · rw [if_neg hc]
        exact Or.inl ⟨rfl, fun h => hc ((conditionsMatch_iff _ _).mpr h.1.2.2)⟩
    · rw [if_neg hn]
      by_cases hf : pg.2.fieldset.fields ≠ [] ∧ pg.2.fieldset.hasAll env msg.data acc.used = true
      · rw [if_pos hf]
        have := (hasAll_iff _ _ _).mp hf.2
        exact Or.inr (Or.inr ⟨hp, hn, hf.1, this.1, this.2, rfl⟩)
      · rw [if_neg hf]
        exact Or.inl ⟨rfl, fun h => hn ⟨h.1.2.1, h.2⟩⟩
  · rw [if_pos hp]
    exact Or.inl ⟨rfl, fun h => hp h.1.1⟩

theorem plainPart_append (a b : List (Str × Value α)) : plainPart (a ++ b) = plainPart a ++ plainPart b :=
  List.filterMap_append
theorem textPart_append (a b : List (Str × Value α)) : textPart (a ++ b) = textPart a ++ textPart b :=
  List.filterMap_append

theorem contribution_cons_pos {rpt : Nat} {e : Int × Option α} {pg : Mapping × Group}
    {ps : List (Mapping × Group)} (h : applies env msg rpt e.1 pg) :
    contribution env (pg :: ps) msg rpt e = e.2.bind fun v =>
      if pathFor env msg.data rpt e.1 pg.1 pg.2 = [] then none
      else some (pathFor env msg.data rpt e.1 pg.1 pg.2, v) := by
  unfold contribution
  rw [List.find?_cons_of_pos (by simpa using h)]; rfl

theorem contribution_cons_neg {rpt : Nat} {e : Int × Option α} {pg : Mapping × Group}
    {ps : List (Mapping × Group)} (h : ¬ applies env msg rpt e.1 pg) :
    contribution env (pg :: ps) msg rpt e = contribution env ps msg rpt e := by
  unfold contribution
  rw [List.find?_cons_of_neg (by simpa using h)]

/-- Where a text of a delta comes from. -/
def TextFrom (env : Env α) (msg : Msg α) (ps : List (Mapping × Group)) (t : Str × Str) : Prop :=
  ∃ pg ∈ ps, pg.2.pgn = msg.pgn ∧ pg.2.fieldset.fields ≠ [] ∧ complete env msg.data pg.2.fieldset ∧
    dotted pg.1.path ≠ [] ∧ t = (dotted pg.1.path, (pg.2.fieldset.parse env msg.data).1)

/-- All groups for one data field. -/
structure EntryFacts (env : Env α) (msg : Msg α) (rpt : Nat) (ps : List (Mapping × Group))
    (e : Int × Option α) (acc acc' : Acc α) (extra : List (Str × Value α)) : Prop where
  keys : (acc'.used.map Prod.fst).Nodup
  mono : ∀ j, acc.used.get j = true → acc'.used.get j = true
  used : ∀ j, acc'.used.get j = true → acc.used.get j = true ∨ j = e.1 ∨ consumed ps msg.pgn j
  values : acc'.values = acc.values ++ extra
  plain : plainPart extra = [] ∨ plainPart extra = (contribution env ps msg rpt e).toList
  plainUsed : acc.used.get e.1 = true → plainPart extra = []
  plainFresh : acc.used.get e.1 = false → ¬ consumed ps msg.pgn e.1 →
    plainPart extra = (contribution env ps msg rpt e).toList
  text : ∀ t ∈ textPart extra, TextFrom env msg ps t

theorem consumed_cons {ps : List (Mapping × Group)} {pg : Mapping × Group} {n : Nat} {j : Int}
    (h : consumed ps n j) : consumed (pg :: ps) n j := by
  obtain ⟨q, hq, h⟩ := h; exact ⟨q, by simp [hq], h⟩

theorem TextFrom.cons {ps : List (Mapping × Group)} {pg : Mapping × Group} {t : Str × Str}
    (h : TextFrom env msg ps t) : TextFrom env msg (pg :: ps) t := by
  obtain ⟨q, hq, h⟩ := h; exact ⟨q, by simp [hq], h⟩

theorem entry_facts {rpt : Nat} (ps : List (Mapping × Group)) (e : Int × Option α) : ∀ (acc : Acc α),
    (acc.used.map Prod.fst).Nodup →
    ∃ extra, EntryFacts env msg rpt ps e acc (ps.foldl (groupPure env msg rpt e.1 e.2) acc) extra := by
  induction ps with
  | nil =>
    intro acc h
    refine ⟨[], ⟨h, fun _ h => h, fun _ h => Or.inl h, by simp, Or.inl rfl, fun _ => rfl, ?_, ?_⟩⟩
    · intro _ _; simp [contribution, plainPart]
    · intro t ht; simp [textPart] at ht
  | cons pg ps ih =>
    intro acc h
    rw [List.foldl_cons]
    rcases step_cases (env := env) (msg := msg) rpt e.1 e.2 acc pg with
      ⟨he, hna⟩ | ⟨ha, hu, he⟩ | ⟨hp, hn, hf, hc, hunused, he⟩
    · rw [he]
      obtain ⟨extra, E⟩ := ih acc h
      refine ⟨extra, ⟨E.keys, E.mono, fun j hj => ?_, E.values, ?_, E.plainUsed, ?_,
        fun t ht => (E.text t ht).cons⟩⟩
      · rcases E.used j hj with h | h | h
        · exact Or.inl h
        · exact Or.inr (Or.inl h)
        · exact Or.inr (Or.inr (consumed_cons h))
      · by_cases hu : acc.used.get e.1 = false
        · have : ¬ applies env msg rpt e.1 pg := fun h => hna ⟨h, hu⟩
          rw [contribution_cons_neg this]; exact E.plain
        · exact Or.inl (E.plainUsed (by simpa using hu))
      · intro hu hnc
        have : ¬ applies env msg rpt e.1 pg := fun h => hna ⟨h, hu⟩
        rw [contribution_cons_neg this]
        exact E.plainFresh hu (fun h => hnc (consumed_cons h))
    · obtain ⟨extra, E⟩ := ih (groupPure env msg rpt e.1 e.2 acc pg) (by rw [he]; exact mapPut_keys h e.1 true)
      rw [he] at E ⊢
      have hk : BoolMap.get (mapPut acc.used e.1 true) e.1 = true := by rw [get_put, if_pos rfl]
      have hpl := E.plainUsed hk
      have hv := E.values.trans (List.append_assoc _ _ _)
      have hcon : plainPart ((match e.2 with
          | some v => if pathFor env msg.data rpt e.1 pg.1 pg.2 = [] then [] else
              [(pathFor env msg.data rpt e.1 pg.1 pg.2, Value.plain v)]
          | none => []) ++ extra) = (contribution env (pg :: ps) msg rpt e).toList := by
        rw [plainPart_append, hpl, contribution_cons_pos ha]
        cases e.2 with
        | none => rfl
        | some v =>
          simp only [Option.bind_some]
          split <;> rfl
      refine ⟨_, ⟨E.keys, fun j hj => E.mono j ?_, fun j hj => ?_, hv, Or.inr hcon, ?_,
        fun _ _ => hcon, ?_⟩⟩
      · rw [get_put]; split
        · rfl
        · exact hj
      · rcases E.used j hj with h | h | h
        · rw [get_put] at h
          split at h
          · rename_i hj; exact Or.inr (Or.inl hj)
          · exact Or.inl h
        · exact Or.inr (Or.inl h)
        · exact Or.inr (Or.inr (consumed_cons h))
      · intro h'; rw [hu] at h'; cases h'
      · intro t ht
        rw [textPart_append, List.mem_append] at ht
        rcases ht with ht | ht
        · exfalso
          revert ht
          cases e.2 with
          | none => simp [textPart]
          | some v => simp only; split <;> simp [textPart]
        · exact (E.text t ht).cons
    · obtain ⟨extra, E⟩ := ih (groupPure env msg rpt e.1 e.2 acc pg)
        (by rw [he]; exact merge_keys acc.used (pg.2.fieldset.parse env msg.data).2)
      rw [he] at E ⊢
      have hv := E.values.trans (List.append_assoc _ _ _)
      have hpl : plainPart ((if dotted pg.1.path = [] then []
        else [(dotted pg.1.path, Value.text (α := α) (pg.2.fieldset.parse env msg.data).1)]) ++ extra) =
          plainPart extra := by
        rw [plainPart_append]
        split <;> simp [plainPart]
      refine ⟨_, ⟨E.keys, fun j hj => E.mono j ?_, fun j hj => ?_, hv, ?_, ?_, ?_, ?_⟩⟩
      · exact (merge_get h _ _ _).mpr (Or.inl hj)
      · rcases E.used j hj with h' | h' | h'
        · rcases (merge_get h _ _ _).mp h' with h' | ⟨_, h'⟩
          · exact Or.inl h'
          · exact Or.inr (Or.inr ⟨pg, by simp, hp, hf, h'⟩)
        · exact Or.inr (Or.inl h')
        · exact Or.inr (Or.inr (consumed_cons h'))
      · rw [hpl]
        by_cases hu : acc.used.get e.1 = false
        · rw [contribution_cons_neg (fun h => hn ⟨h.2.1, hu⟩)]; exact E.plain
        · exact Or.inl (E.plainUsed ((merge_get h _ _ _).mpr (Or.inl (by simpa using hu))))
      · intro hu
        rw [hpl]
        exact E.plainUsed ((merge_get h _ _ _).mpr (Or.inl hu))
      · intro hu hnc
        rw [hpl, contribution_cons_neg (fun h => hn ⟨h.2.1, hu⟩)]
        refine E.plainFresh ?_ (fun h => hnc (consumed_cons h))
        by_contra hc'
        have : (merge acc.used (pg.2.fieldset.parse env msg.data).2).get e.1 = true := by simpa using hc'
        rcases (merge_get h _ _ _).mp this with h' | ⟨_, h'⟩
        · rw [hu] at h'; cases h'
        · exact hnc ⟨pg, by simp, hp, hf, h'⟩
      · intro t ht
        rw [textPart_append, List.mem_append] at ht
        rcases ht with ht | ht
        · split at ht
          · simp [textPart] at ht
          · rename_i hd
            simp only [textPart, List.filterMap_cons, List.filterMap_nil, List.mem_singleton] at ht
            exact ⟨pg, by simp, hp, hf, hc, hd, ht⟩
        · exact (E.text t ht).cons

/-! ## All data fields -/

structure LoopFacts (env : Env α) (msg : Msg α) (rpt : Nat) (ps : List (Mapping × Group))
    (order : List (Int × Option α)) (acc acc' : Acc α) (extra : List (Str × Value α)) : Prop where
  keys : (acc'.used.map Prod.fst).Nodup
  values : acc'.values = acc.values ++ extra
  sub : ∃ src : List (Int × Option α), src.Sublist order ∧ plainPart extra = src.filterMap (contribution env ps msg rpt) ∧
    ∀ e ∈ order, acc.used.get e.1 = false → ¬ consumed ps msg.pgn e.1 → e ∈ src
  text : ∀ t ∈ textPart extra, TextFrom env msg ps t

theorem loop_facts {rpt : Nat} (ps : List (Mapping × Group)) : ∀ (order : List (Int × Option α)) (acc : Acc α),
    (acc.used.map Prod.fst).Nodup → (order.map Prod.fst).Nodup →
    ∃ extra, LoopFacts env msg rpt ps order acc
      (order.foldl (fun acc e => ps.foldl (groupPure env msg rpt e.1 e.2) acc) acc) extra := by
  intro order
  induction order with
  | nil =>
    intro acc h _
    exact ⟨[], ⟨h, by simp, ⟨[], List.Sublist.refl _, rfl, fun e he => by cases he⟩,
      fun t ht => by simp [textPart] at ht⟩⟩
  | cons e order ih =>
    intro acc h hnd
    simp only [List.map_cons, List.nodup_cons] at hnd
    obtain ⟨x1, E⟩ := entry_facts (env := env) (msg := msg) (rpt := rpt) ps e acc h
    obtain ⟨x2, L⟩ := ih _ E.keys hnd.2
    obtain ⟨src, hs, hp, hin⟩ := L.sub
    refine ⟨x1 ++ x2, ⟨L.keys, ?_, ?_, ?_⟩⟩
    · rw [List.foldl_cons, L.values, E.values, List.append_assoc]
    · have later : ∀ e' ∈ order, acc.used.get e'.1 = false → ¬ consumed ps msg.pgn e'.1 → e' ∈ src := by
        intro e' he' hu hc
        refine hin e' he' ?_ hc
        by_contra hx
        rcases E.used e'.1 (by simpa using hx) with h1 | h1 | h1
        · rw [hu] at h1; cases h1
        · exact hnd.1 (h1 ▸ List.mem_map_of_mem he')
        · exact hc h1
      rcases E.plain with h0 | h0
      · by_cases hfresh : acc.used.get e.1 = false ∧ ¬ consumed ps msg.pgn e.1
        · refine ⟨e :: src, hs.cons_cons e, ?_, ?_⟩
          · rw [plainPart_append, E.plainFresh hfresh.1 hfresh.2, hp]
            rw [List.filterMap_cons]
            cases contribution env ps msg rpt e <;> rfl
          · intro e' he' hu hc
            rcases List.mem_cons.mp he' with rfl | he'
            · simp
            · exact List.mem_cons_of_mem _ (later e' he' hu hc)
        · refine ⟨src, hs.cons e, ?_, ?_⟩
          · rw [plainPart_append, h0, hp]; rfl
          · intro e' he' hu hc
            rcases List.mem_cons.mp he' with rfl | he'
            · exact absurd ⟨hu, hc⟩ hfresh
            · exact later e' he' hu hc
      · refine ⟨e :: src, hs.cons_cons e, ?_, ?_⟩
        · rw [plainPart_append, h0, hp, List.filterMap_cons]
          cases contribution env ps msg rpt e <;> rfl
        · intro e' he' hu hc
          rcases List.mem_cons.mp he' with rfl | he'
          · simp
          · exact List.mem_cons_of_mem _ (later e' he' hu hc)
    · intro t ht
      rw [textPart_append, List.mem_append] at ht
      exact ht.elim (E.text t) (L.text t)

end Argo.Signalk
