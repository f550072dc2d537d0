import Verif.Signalk.Spec
import Verif.Nmea2k.Loop

set_option autoImplicit false

namespace Argo.Signalk

open Argo Argo.Signalk.Spec

variable {α : Type} {env : Env α} {reps : List Nat} {maps : List Mapping} {msg : Msg α}

/-! ## Maps -/

theorem mapFind_mapPut {β : Type} (d : List (Int × β)) (k : Int) (v : β) (k' : Int) :
    mapFind (mapPut d k v) k' = if k' = k then some v else mapFind d k' := by
  unfold mapPut mapFind
  split
  · rename_i h
    induction d with
    | nil => simp at h
    | cons e d ih =>
      simp only [List.map_cons]
      by_cases he : e.1 = k
      · simp only [he, if_true]
        by_cases hk : k' = k
        · subst hk; simp
        · rw [if_neg hk, List.find?_cons_of_neg (by simpa using fun h => hk h.symm),
            List.find?_cons_of_neg (by rw [he]; simpa using fun h => hk h.symm)]
          by_cases hd : d.any (fun e => decide (e.1 = k)) = true
          · have := ih hd
            rw [if_neg hk] at this
            exact this
          · congr 2
            conv => rhs; rw [← List.map_id d]
            apply List.map_congr_left
            intro x hx
            rw [if_neg]; rfl
            intro hxk
            exact hd (List.any_eq_true.mpr ⟨x, hx, by simpa using hxk⟩)
      · rw [if_neg he]
        by_cases hek : e.1 = k'
        · rw [List.find?_cons_of_pos (by simpa using hek), List.find?_cons_of_pos (by simpa using hek),
            if_neg (by intro h; exact he (hek.trans h))]
        · rw [List.find?_cons_of_neg (by simpa using hek), List.find?_cons_of_neg (by simpa using hek)]
          refine ih ?_
          simpa [he] using h
  · rename_i h
    rw [List.find?_append]
    by_cases hk : k' = k
    · subst hk
      have : d.find? (fun e => decide (e.1 = k')) = none := by
        rw [List.find?_eq_none]
        intro x hx hxk
        exact h (List.any_eq_true.mpr ⟨x, hx, hxk⟩)
      rw [this, if_pos rfl]; simp
    · rw [if_neg hk]
      have : List.find? (fun e => decide (e.1 = k')) [(k, v)] = none := by
        simp; exact fun h => hk h.symm
      rw [this, Option.or_none]

theorem mapPut_keys {β : Type} {d : List (Int × β)} (h : (d.map Prod.fst).Nodup) (k : Int) (v : β) :
    ((mapPut d k v).map Prod.fst).Nodup := by
  unfold mapPut
  split
  · have : (d.map (fun e => if e.1 = k then (k, v) else e)).map Prod.fst = d.map Prod.fst := by
      rw [List.map_map]
      apply List.map_congr_left
      intro x _
      simp only [Function.comp]
      split
      · rename_i h; exact h.symm
      · rfl
    rw [this]; exact h
  · rename_i hn
    rw [List.map_append, List.nodup_append]
    refine ⟨h, by simp, ?_⟩
    intro a ha b hb
    simp only [List.map_cons, List.map_nil, List.mem_singleton] at hb
    subst hb
    rintro rfl
    obtain ⟨x, hx, rfl⟩ := List.mem_map.mp ha
    exact hn (List.any_eq_true.mpr ⟨x, hx, by simp⟩)

/-- Writing a list of entries with distinct keys: they win over the map. -/
theorem foldl_mapPut {β : Type} (r : List (Int × β)) : ∀ (d : List (Int × β)), (r.map Prod.fst).Nodup →
    ∀ k, mapFind (r.foldl (fun r e => mapPut r e.1 e.2) d) k = (mapFind r k).or (mapFind d k) := by
  induction r with
  | nil => intro d _ k; simp [mapFind]
  | cons e r ih =>
    intro d hnd k
    simp only [List.map_cons, List.nodup_cons] at hnd
    rw [List.foldl_cons, ih _ hnd.2, mapFind_mapPut]
    by_cases he : k = e.1
    · subst he
      have h1 : mapFind r e.1 = none := by
        unfold mapFind
        rw [List.find?_eq_none.mpr]; rfl
        intro x hx hxe
        exact hnd.1 (by have : x.1 = e.1 := by simpa using hxe
                        rw [← this]; exact List.mem_map_of_mem hx)
      have h2 : mapFind (e :: r) e.1 = some e.2 := by
        unfold mapFind; rw [List.find?_cons_of_pos (by simp)]; rfl
      rw [h1, h2, if_pos rfl]; rfl
    · rw [if_neg he]
      have h2 : mapFind (e :: r) k = mapFind r k := by
        unfold mapFind
        rw [List.find?_cons_of_neg (by simpa using fun h => he h.symm)]
      rw [h2]

theorem get_put (u : BoolMap) (k k' : Int) (v : Bool) :
    (BoolMap.get (mapPut u k v) k') = if k' = k then v else u.get k' := by
  unfold BoolMap.get
  rw [mapFind_mapPut]; split <;> rfl

/-- Keys written by a fold are those of the list. -/
theorem foldl_mapPut_other {β : Type} (r : List (Int × β)) : ∀ (d : List (Int × β)) (k : Int),
    k ∉ r.map Prod.fst → mapFind (r.foldl (fun r e => mapPut r e.1 e.2) d) k = mapFind d k := by
  induction r with
  | nil => intro d k _; rfl
  | cons e r ih =>
    intro d k hk
    simp only [List.map_cons, List.mem_cons, not_or] at hk
    rw [List.foldl_cons, ih _ k hk.2, mapFind_mapPut, if_neg hk.1]

/-! ## Flattening the loops -/

theorem foldlM_map {σ β γ : Type} (f : γ → β) (h : σ → β → GoM σ) : ∀ (l : List γ) (a : σ),
    (l.map f).foldlM h a = l.foldlM (fun a x => h a (f x)) a := by
  intro l
  induction l with
  | nil => intro a; rfl
  | cons x l ih =>
    intro a
    simp only [List.map_cons, List.foldlM_cons]
    cases h a (f x) with
    | error e => rfl
    | ok b => exact ih b

theorem foldlM_append' {σ β : Type} (h : σ → β → GoM σ) : ∀ (l r : List β) (a : σ),
    (l ++ r).foldlM h a = (do let b ← l.foldlM h a; r.foldlM h b) := by
  intro l
  induction l with
  | nil => intro r a; rfl
  | cons x l ih =>
    intro r a
    simp only [List.cons_append, List.foldlM_cons]
    cases h a x with
    | error e => rfl
    | ok b => exact ih r b

theorem loops_eq (fieldId : Int) (field : Option α) : ∀ (maps : List Mapping) (acc : Acc α),
    maps.foldlM (fun acc mp =>
      mp.groups.foldlM (fun acc g => groupStep env reps msg fieldId field mp g acc) acc) acc =
    (pairs maps).foldlM (fun acc pg => groupStep env reps msg fieldId field pg.1 pg.2 acc) acc := by
  intro maps
  induction maps with
  | nil => intro acc; rfl
  | cons mp maps ih =>
    intro acc
    have : pairs (mp :: maps) = mp.groups.map (fun g => (mp, g)) ++ pairs maps := by
      simp [pairs]
    rw [this, foldlM_append', foldlM_map, List.foldlM_cons]
    simp only
    cases mp.groups.foldlM (fun acc g => groupStep env reps msg fieldId field mp g acc) acc with
    | error e => rfl
    | ok b => exact ih b

/-! ## One group -/

/-- The panics of a group on a message. -/
theorem groupPath_eq (k : Int) (mp : Mapping) (g : Group) :
    (∀ rpt, reps[msg.index]? = some rpt → 2 ≤ mp.path.length → (hasMult g → rpt ≠ 0) →
      groupPath env reps msg k mp g = .ok (pathFor env msg.data rpt k mp g, Spec.multField g, rpt)) ∧
    (mp.path.length < 2 ∨ reps.length ≤ msg.index ∨ (hasMult g ∧ reps[msg.index]? = some 0) →
      ∃ e, groupPath env reps msg k mp g = .error e) := by
  have hl : (mp.path.map (fun c => if c = 47 then (46 : Byte) else c)).length = mp.path.length :=
    List.length_map _
  have hidx : Nmea2k.goIndex reps (msg.index : Int) =
      match reps[msg.index]? with | some a => .ok a | none => .error .index := by
    rw [Nmea2k.goIndex_nat]
    cases reps[msg.index]? <;> rfl
  constructor
  · intro rpt hr hp hm
    unfold groupPath toDotNotation
    simp only [hl]
    rw [if_neg (by omega), hidx, hr]
    simp only [bind, Except.bind, pure, Except.pure]
    unfold pathFor Spec.multIndex Spec.multField
    simp only [Spec.textOf_eq]
    by_cases hmul : hasMult g
    · have h0 := hm hmul
      rw [if_pos (by exact hmul), if_neg h0, if_pos hmul]
      simp only [if_pos hmul]
      rfl
    · rw [if_neg (by exact hmul), if_neg hmul]
      simp only [if_neg hmul]
      rfl
  · intro h
    unfold groupPath toDotNotation
    simp only [hl]
    by_cases hp : mp.path.length < 2
    · rw [if_pos hp]; exact ⟨_, rfl⟩
    · rw [if_neg hp]
      simp only [bind, Except.bind]
      rw [hidx]
      rcases h with h | h | ⟨h, h'⟩
      · omega
      · rw [List.getElem?_eq_none h]; exact ⟨_, rfl⟩
      · rw [h']
        simp only
        rw [if_pos (by exact h)]
        exact ⟨_, rfl⟩

theorem selects_iff (g : Group) (k : Int) (rpt : Nat) :
    selects g k (Spec.multField g) rpt = true ↔ names g rpt k := by
  unfold selects names
  simp only [Bool.and_eq_true, Bool.or_eq_true, decide_eq_true_eq]
  constructor
  · rintro ⟨h1, h2 | h2⟩
    · refine ⟨h1, Or.inr ⟨?_, by omega, by omega, h2.2.2⟩⟩
      by_cases h : hasMult g
      · exact h
      · have : Spec.multField g = -1 := by unfold Spec.multField; rw [if_neg h]
        omega
    · exact ⟨h1, Or.inl h2⟩
  · rintro ⟨h1, h2 | ⟨_, h2, h3, h4⟩⟩
    · exact ⟨h1, Or.inr h2⟩
    · exact ⟨h1, Or.inl ⟨by omega, by omega, h4⟩⟩

/-- One group, when nothing panics. -/
def groupPure (env : Env α) (msg : Msg α) (rpt : Nat) (k : Int) (x : Option α)
    (acc : Acc α) (pg : Mapping × Group) : Acc α :=
  if pg.2.pgn ≠ msg.pgn then acc
  else if names pg.2 rpt k ∧ acc.used.get k = false then
    if conditionsMatch env msg.data pg.2.conditions = true then
      ⟨mapPut acc.used k true, acc.values ++ (match x with
        | some v => if pathFor env msg.data rpt k pg.1 pg.2 = [] then [] else
            [(pathFor env msg.data rpt k pg.1 pg.2, .plain v)]
        | none => [])⟩
    else acc
  else if pg.2.fieldset.fields ≠ [] ∧ pg.2.fieldset.hasAll env msg.data acc.used = true then
    ⟨merge acc.used (pg.2.fieldset.parse env msg.data).2, acc.values ++
      if dotted pg.1.path = [] then [] else [(dotted pg.1.path, .text (pg.2.fieldset.parse env msg.data).1)]⟩
  else acc

theorem groupStep_eq (k : Int) (x : Option α) (pg : Mapping × Group) (acc : Acc α) :
    (¬ bad reps msg pg → ∃ rpt, (pg.2.pgn = msg.pgn → reps[msg.index]? = some rpt) ∧
      groupStep env reps msg k x pg.1 pg.2 acc = .ok (groupPure env msg rpt k x acc pg)) ∧
    (bad reps msg pg → ∃ e, groupStep env reps msg k x pg.1 pg.2 acc = .error e) := by
  constructor
  · intro hb
    by_cases hp : pg.2.pgn = msg.pgn
    · have hb' : ¬ (pg.1.path.length < 2 ∨ reps.length ≤ msg.index ∨
          (hasMult pg.2 ∧ reps[msg.index]? = some 0)) := fun h => hb ⟨hp, h⟩
      simp only [not_or] at hb'
      obtain ⟨b1, b2, b3⟩ := hb'
      have hr := List.getElem?_eq_getElem (show msg.index < reps.length by omega)
      refine ⟨reps[msg.index], fun _ => hr, ?_⟩
      have hg := (groupPath_eq (env := env) (reps := reps) (msg := msg) k pg.1 pg.2).1 _ hr (by omega)
        (fun hm h0 => b3 ⟨hm, by rw [hr, h0]⟩)
      have hpn : ¬ (pg.2.pgn ≠ msg.pgn) := fun h => h hp
      unfold groupStep groupPure
      rw [if_neg hpn, if_neg hpn, hg]
      simp only [bind, Except.bind]
      have hiff := selects_iff pg.2 k reps[msg.index]
      by_cases hn : names pg.2 reps[msg.index] k ∧ acc.used.get k = false
      · have : (selects pg.2 k (Spec.multField pg.2) reps[msg.index] && !acc.used.get k) = true := by
          rw [hiff.mpr hn.1, hn.2]; rfl
        rw [if_pos this, if_pos hn]
        by_cases hc : conditionsMatch env msg.data pg.2.conditions = true
        · rw [if_pos hc, if_pos hc]
          cases x with
          | none => simp [pure, Except.pure]
          | some v =>
            simp only
            by_cases hpe : pathFor env msg.data reps[msg.index] k pg.1 pg.2 = []
            · rw [if_pos hpe, if_neg (by simpa using hpe)]; simp [pure, Except.pure]
            · rw [if_neg hpe, if_pos (by simpa using hpe)]; rfl
        · rw [if_neg hc, if_neg hc]; rfl
      · have : ¬ (selects pg.2 k (Spec.multField pg.2) reps[msg.index] && !acc.used.get k) = true := by
          intro h
          rw [Bool.and_eq_true, hiff] at h
          exact hn ⟨h.1, by simpa using h.2⟩
        rw [if_neg this, if_neg hn]
        by_cases hf : pg.2.fieldset.fields = []
        · rw [if_neg (by simpa using hf), if_neg (by simp [hf])]; rfl
        · rw [if_pos hf]
          by_cases ha : pg.2.fieldset.hasAll env msg.data acc.used = true
          · rw [if_pos ha, if_pos ⟨hf, ha⟩]
            have hd : toDotNotation pg.1.path = .ok (dotted pg.1.path) := by
              unfold toDotNotation dotted
              simp only [List.length_map]
              rw [if_neg (by omega)]
            rw [hd]
            simp only
            by_cases hpe : dotted pg.1.path = []
            · rw [if_pos hpe, if_neg (by simpa using hpe)]; simp [pure, Except.pure]
            · rw [if_neg hpe, if_pos (by simpa using hpe)]; rfl
          · rw [if_neg ha, if_neg (fun h => ha h.2)]; rfl
    · refine ⟨0, fun h => absurd h hp, ?_⟩
      unfold groupStep groupPure
      rw [if_pos hp, if_pos hp]
  · rintro ⟨hp, h⟩
    obtain ⟨e, he⟩ := (groupPath_eq (env := env) (reps := reps) (msg := msg) k pg.1 pg.2).2 h
    refine ⟨e, ?_⟩
    unfold groupStep
    rw [if_neg (by simpa using hp), he]
    rfl

/-- `rpt` matters only for groups of the message's PGN. -/
theorem groupPure_other {rpt rpt' : Nat} {k : Int} {x : Option α} {acc : Acc α} {pg : Mapping × Group}
    (h : pg.2.pgn ≠ msg.pgn) : groupPure env msg rpt k x acc pg = groupPure env msg rpt' k x acc pg := by
  unfold groupPure; rw [if_pos h, if_pos h]

theorem foldlM_groups {ps : List (Mapping × Group)} (k : Int) (x : Option α) : ∀ (acc : Acc α),
    ((∀ pg ∈ ps, ¬ bad reps msg pg) →
      ps.foldlM (fun acc pg => groupStep env reps msg k x pg.1 pg.2 acc) acc =
        .ok (ps.foldl (groupPure env msg (reps[msg.index]?.getD 0) k x) acc)) ∧
    ((∃ pg ∈ ps, bad reps msg pg) →
      ∃ e, ps.foldlM (fun acc pg => groupStep env reps msg k x pg.1 pg.2 acc) acc = .error e) := by
  induction ps with
  | nil => intro acc; exact ⟨fun _ => rfl, by rintro ⟨_, h, _⟩; cases h⟩
  | cons pg ps ih =>
    intro acc
    constructor
    · intro h
      obtain ⟨rpt, hr, hs⟩ := (groupStep_eq (env := env) (reps := reps) (msg := msg) k x pg acc).1
        (h pg (by simp))
      rw [List.foldlM_cons, hs]
      have e : groupPure env msg rpt k x acc pg =
          groupPure env msg (reps[msg.index]?.getD 0) k x acc pg := by
        by_cases hp : pg.2.pgn = msg.pgn
        · rw [hr hp]; rfl
        · exact groupPure_other hp
      rw [e]
      exact (ih _).1 (fun q hq => h q (by simp [hq]))
    · intro h
      rw [List.foldlM_cons]
      by_cases hb : bad reps msg pg
      · obtain ⟨e, he⟩ := (groupStep_eq (env := env) (reps := reps) (msg := msg) k x pg acc).2 hb
        exact ⟨e, by rw [he]; rfl⟩
      · obtain ⟨rpt, hr, hs⟩ := (groupStep_eq (env := env) (reps := reps) (msg := msg) k x pg acc).1 hb
        rw [hs]
        obtain ⟨q, hq, hqb⟩ := h
        rcases List.mem_cons.mp hq with rfl | hq
        · exact absurd hqb hb
        · exact (ih _).2 ⟨q, hq, hqb⟩

/-- All groups for one data field. -/
def entryPure (env : Env α) (maps : List Mapping) (msg : Msg α) (rpt : Nat) (acc : Acc α)
    (e : Int × Option α) : Acc α :=
  (pairs maps).foldl (groupPure env msg rpt e.1 e.2) acc

theorem deltaLoop_eq (order : List (Int × Option α)) : ∀ (acc : Acc α),
    ((∀ pg ∈ pairs maps, ¬ bad reps msg pg) →
      deltaLoop env reps maps msg order acc =
        .ok (order.foldl (entryPure env maps msg (reps[msg.index]?.getD 0)) acc)) ∧
    (order ≠ [] → (∃ pg ∈ pairs maps, bad reps msg pg) →
      ∃ e, deltaLoop env reps maps msg order acc = .error e) := by
  induction order with
  | nil => intro acc; exact ⟨fun _ => rfl, fun h => absurd rfl h⟩
  | cons e order ih =>
    intro acc
    obtain ⟨k, x⟩ := e
    constructor
    · intro h
      unfold deltaLoop
      rw [loops_eq, (foldlM_groups k x acc).1 h]
      exact (ih _).1 h
    · intro _ h
      unfold deltaLoop
      rw [loops_eq]
      obtain ⟨e, he⟩ := (foldlM_groups (env := env) (reps := reps) (msg := msg) k x acc).2 h
      exact ⟨e, by rw [he]; rfl⟩

end Argo.Signalk
