import Verif.Signalk.Props

set_option autoImplicit false

/-! # C56: independence of the iteration order; how often a fieldset is reported -/

namespace Argo.Signalk

open Argo Argo.Signalk.Spec

variable {α : Type} {env : Env α} {reps : List Nat} {maps : List Mapping} {msg : Msg α}

/-! ## Reads do not depend on the order -/

theorem mapFind_iff {β : Type} {d : List (Int × β)} (hnd : (d.map Prod.fst).Nodup) (k : Int) (v : β) :
    mapFind d k = some v ↔ (k, v) ∈ d := by
  induction d with
  | nil => simp [mapFind]
  | cons e d ih =>
    simp only [List.map_cons, List.nodup_cons] at hnd
    unfold mapFind at ih ⊢
    by_cases he : e.1 = k
    · rw [List.find?_cons_of_pos (by simpa using he)]
      simp only [Option.map_some, Option.some.injEq, List.mem_cons]
      constructor
      · intro h; left; rw [← he, ← h]
      · rintro (h | h)
        · rw [← h]
        · exact absurd (by rw [he]; exact List.mem_map_of_mem (f := Prod.fst) h) hnd.1
    · rw [List.find?_cons_of_neg (by simpa using he), ih hnd.2, List.mem_cons]
      constructor
      · exact Or.inr
      · rintro (h | h)
        · exact absurd (by rw [← h]) he
        · exact h

theorem get_perm {d d' : Data α} (hp : d.Perm d') (hnd : (d.map Prod.fst).Nodup) : d.get = d'.get := by
  have hnd' : (d'.map Prod.fst).Nodup := (hp.map Prod.fst).nodup_iff.mp hnd
  funext k
  unfold Data.get
  congr 1
  cases h : mapFind d k with
  | some v => rw [(mapFind_iff hnd' k v).mpr (hp.subset ((mapFind_iff hnd k v).mp h))]
  | none =>
    cases h' : mapFind d' k with
    | none => rfl
    | some v =>
      rw [(mapFind_iff hnd k v).mpr (hp.symm.subset ((mapFind_iff hnd' k v).mp h'))] at h; cases h

section congr
variable {msg' : Msg α}

theorem holds_congr {d d' : Data α} (h : d.get = d'.get) : holds env d = holds env d' := by
  funext c; unfold holds; rw [h]

theorem accepted_congr {d d' : Data α} (h : d.get = d'.get) : accepted env d = accepted env d' := by
  funext c; unfold accepted; rw [holds_congr h]

theorem complete_congr {d d' : Data α} (h : d.get = d'.get) : complete env d = complete env d' := by
  funext c; unfold complete; rw [h]

theorem parse_congr {d d' : Data α} (h : d.get = d'.get) (fs : Fieldset) : fs.parse env d = fs.parse env d' := by
  unfold Fieldset.parse; rw [h]

theorem pathFor_congr {d d' : Data α} (h : d.get = d'.get) : pathFor env d = pathFor env d' := by
  funext a b c e; unfold pathFor; rw [h]

theorem contribution_congr (hpgn : msg.pgn = msg'.pgn) (h : msg.data.get = msg'.data.get) :
    (fun ps => contribution env ps msg) = (fun ps => contribution env ps msg') := by
  funext ps rpt e
  unfold contribution applies
  rw [accepted_congr h, pathFor_congr h, hpgn]
end congr

/-- Whether Delta panics does not depend on the order. -/
theorem delta_ok_perm {msg' : Msg α} (hpgn : msg.pgn = msg'.pgn) (hi : msg.index = msg'.index)
    (hp : msg.data.Perm msg'.data) {r : Option (List (Update α))} (h : delta env reps maps msg = .ok r) :
    ∃ r', delta env reps maps msg' = .ok r' := by
  cases h' : delta env reps maps msg' with
  | ok r' => exact ⟨r', rfl⟩
  | error e =>
    obtain ⟨hd, mp, m1, g, m2, hb⟩ := C60_exact.mp ⟨e, h'⟩
    have : ∃ e, delta env reps maps msg = .error e := by
      refine C60_exact.mpr ⟨?_, mp, m1, g, m2, ?_⟩
      · intro h0; rw [h0] at hp; exact hd hp.symm.eq_nil
      · unfold bad at hb ⊢; rw [hpgn, hi]; exact hb
    obtain ⟨e, he⟩ := this
    rw [h] at he; cases he

/-- Without fieldsets for the PGN, the values are the same for every iteration order, up to order.
(Partial: not with fieldsets, see `C56_false`; with separate fieldsets see `C56_separate`.) -/
theorem C56_order_partial {msg' : Msg α} (hpgn : msg.pgn = msg'.pgn) (hi : msg.index = msg'.index)
    (hnd : (msg.data.map Prod.fst).Nodup) (hp : msg.data.Perm msg'.data)
    (hf : ∀ mp ∈ maps, ∀ g ∈ mp.groups, g.pgn = msg.pgn → g.fieldset.fields = [])
    {r : Option (List (Update α))} (h : delta env reps maps msg = .ok r) :
    ∃ r', delta env reps maps msg' = .ok r' ∧ (valuesOf r').Perm (valuesOf r) := by
  obtain ⟨r', h'⟩ := delta_ok_perm hpgn hi hp h
  have hnd' : (msg'.data.map Prod.fst).Nodup := (hp.map Prod.fst).nodup_iff.mp hnd
  refine ⟨r', h', ?_⟩
  rw [C55_exact h hnd hf, C55_exact h' hnd' (by rw [← hpgn]; exact hf)]
  have hc := congrFun (contribution_congr (env := env) hpgn (get_perm hp hnd)) (pairs maps)
  have hrep : rep reps msg = rep reps msg' := by unfold rep; rw [hi]
  rw [hc, hrep]
  exact ((hp.filterMap _).map _).symm

/-! ## A PGN with one fieldset whose fields are not mapped individually -/

/-- `F` is the only pair of the PGN with a fieldset; it selects no single field, has a date and a time
field, and no pair of the PGN selects a field of the fieldset. -/
structure Separate (ps : List (Mapping × Group)) (pgn rpt : Nat) (F : Mapping × Group)
    (pre post : List (Mapping × Group)) : Prop where
  split : ps = pre ++ F :: post
  hpgn : F.2.pgn = pgn
  fields : F.2.fieldset.fields ≠ []
  only : ∀ pg ∈ pre ++ post, pg.2.pgn = pgn → pg.2.fieldset.fields = []
  noField : (parseInt F.2.field 64).2 = false
  date : ∃ f ∈ F.2.fieldset.fields, f.2 = F.2.fieldset.lookup (bs "date")
  time : ∃ f ∈ F.2.fieldset.fields, f.2 = F.2.fieldset.lookup (bs "time")
  unnamed : ∀ f ∈ F.2.fieldset.fields, ∀ pg ∈ ps, pg.2.pgn = pgn → ¬ names pg.2 rpt f.2

/-- Pairs without fieldsets: no texts, and fields they do not select keep their state. -/
theorem plain_fold {rpt : Nat} (k : Int) (x : Option α) : ∀ (ps : List (Mapping × Group)) (acc : Acc α),
    (∀ pg ∈ ps, pg.2.pgn = msg.pgn → pg.2.fieldset.fields = []) →
    textPart (ps.foldl (groupPure env msg rpt k x) acc).values = textPart acc.values ∧
    ∀ j, (∀ pg ∈ ps, pg.2.pgn = msg.pgn → ¬ names pg.2 rpt j) →
      (ps.foldl (groupPure env msg rpt k x) acc).used.get j = acc.used.get j := by
  intro ps
  induction ps with
  | nil => intro acc _; exact ⟨rfl, fun _ _ => rfl⟩
  | cons pg ps ih =>
    intro acc h
    rw [List.foldl_cons]
    obtain ⟨i1, i2⟩ := ih (groupPure env msg rpt k x acc pg) (fun q hq => h q (by simp [hq]))
    rw [i1]
    refine ⟨?_, fun j hj => ?_⟩
    · rcases step_cases (env := env) (msg := msg) rpt k x acc pg with ⟨he, _⟩ | ⟨_, _, he⟩ | ⟨hp, _, hf, _⟩
      · rw [he]
      · rw [he]
        simp only [textPart_append]
        cases x with
        | none => simp [textPart]
        | some v => simp only; split <;> simp [textPart]
      · exact absurd (h pg (by simp) hp) hf
    · rw [i2 j (fun q hq => hj q (by simp [hq]))]
      rcases step_cases (env := env) (msg := msg) rpt k x acc pg with ⟨he, _⟩ | ⟨ha, _, he⟩ | ⟨hp, _, hf, _⟩
      · rw [he]
      · rw [he]
        simp only [get_put]
        rw [if_neg]
        rintro rfl
        exact hj pg (by simp) ha.1 ha.2.1
      · exact absurd (h pg (by simp) hp) hf

/-- The fields of the fieldset are unused. -/
def Fresh (F : Mapping × Group) (u : BoolMap) : Prop := ∀ f ∈ F.2.fieldset.fields, u.get f.2 = false

theorem F_step {rpt : Nat} {F : Mapping × Group} (k : Int) (x : Option α) (acc : Acc α)
    (hp : F.2.pgn = msg.pgn) (hf : F.2.fieldset.fields ≠ []) (hno : (parseInt F.2.field 64).2 = false) :
    (¬ (complete env msg.data F.2.fieldset ∧ Fresh F acc.used) → groupPure env msg rpt k x acc F = acc) ∧
    (complete env msg.data F.2.fieldset → Fresh F acc.used →
      groupPure env msg rpt k x acc F = ⟨merge acc.used (F.2.fieldset.parse env msg.data).2, acc.values ++
        if dotted F.1.path = [] then []
        else [(dotted F.1.path, .text (F.2.fieldset.parse env msg.data).1)]⟩) := by
  have hn : ¬ names F.2 rpt k := by intro h; rw [h.1] at hno; cases hno
  have hall := hasAll_iff (env := env) F.2.fieldset msg.data acc.used
  have hpn : ¬ (F.2.pgn ≠ msg.pgn) := fun h => h hp
  have hn' : ¬ (names F.2 rpt k ∧ acc.used.get k = false) := fun h => hn h.1
  constructor
  · intro h
    unfold groupPure
    rw [if_neg hpn, if_neg hn', if_neg]
    rintro ⟨_, h2⟩
    exact h (hall.mp h2)
  · intro h1 h2
    unfold groupPure
    rw [if_neg hpn, if_neg hn', if_pos ⟨hf, hall.mpr ⟨h1, h2⟩⟩]

section
variable {rpt : Nat} {F : Mapping × Group} {ps pre post : List (Mapping × Group)}

/-- One data field: the text appears if the fieldset is complete and unused. -/
theorem entry_text (hS : Separate ps msg.pgn rpt F pre post) (k : Int) (x : Option α) (acc : Acc α)
    (hkeys : (acc.used.map Prod.fst).Nodup) :
    (complete env msg.data F.2.fieldset ∧ Fresh F acc.used →
      textPart (ps.foldl (groupPure env msg rpt k x) acc).values = textPart acc.values ++
        (if dotted F.1.path = [] then [] else [(dotted F.1.path, (F.2.fieldset.parse env msg.data).1)]) ∧
      (Fresh F (ps.foldl (groupPure env msg rpt k x) acc).used ↔
        (F.2.fieldset.parse env msg.data).2 = [])) ∧
    (¬ (complete env msg.data F.2.fieldset ∧ Fresh F acc.used) →
      textPart (ps.foldl (groupPure env msg rpt k x) acc).values = textPart acc.values ∧
      (Fresh F (ps.foldl (groupPure env msg rpt k x) acc).used ↔ Fresh F acc.used)) := by
  have hun := hS.unnamed
  have e : ps.foldl (groupPure env msg rpt k x) acc =
      post.foldl (groupPure env msg rpt k x) (groupPure env msg rpt k x
        (pre.foldl (groupPure env msg rpt k x) acc) F) := by
    rw [hS.split, List.foldl_append, List.foldl_cons]
  rw [hS.split] at hun
  obtain ⟨a1, a2⟩ := plain_fold (env := env) (rpt := rpt) k x pre acc
    (fun pg hpg => hS.only pg (by simp [hpg]))
  have a2' : ∀ f ∈ F.2.fieldset.fields,
      (pre.foldl (groupPure env msg rpt k x) acc).used.get f.2 = acc.used.get f.2 :=
    fun f hf => a2 f.2 (fun pg hpg => hun f hf pg (by simp [hpg]))
  have akeys : ((pre.foldl (groupPure env msg rpt k x) acc).used.map Prod.fst).Nodup := by
    obtain ⟨_, E⟩ := entry_facts (env := env) (msg := msg) (rpt := rpt) pre (k, x) acc hkeys
    exact E.keys
  generalize hA : pre.foldl (groupPure env msg rpt k x) acc = A at e a1 a2 a2' akeys
  have aF : Fresh F A.used ↔ Fresh F acc.used :=
    ⟨fun h f hf => by rw [← a2' f hf]; exact h f hf, fun h f hf => by rw [a2' f hf]; exact h f hf⟩
  obtain ⟨b1, b2⟩ := plain_fold (env := env) (rpt := rpt) k x post (groupPure env msg rpt k x A F)
    (fun pg hpg => hS.only pg (by simp [hpg]))
  have b2' : ∀ f ∈ F.2.fieldset.fields, (ps.foldl (groupPure env msg rpt k x) acc).used.get f.2 =
      (groupPure env msg rpt k x A F).used.get f.2 := by
    rw [e]; exact fun f hf => b2 f.2 (fun pg hpg => hun f hf pg (by simp [hpg]))
  have bF : Fresh F (ps.foldl (groupPure env msg rpt k x) acc).used ↔
      Fresh F (groupPure env msg rpt k x A F).used :=
    ⟨fun h f hf => by rw [← b2' f hf]; exact h f hf, fun h f hf => by rw [b2' f hf]; exact h f hf⟩
  obtain ⟨s1, s2⟩ := F_step (env := env) (msg := msg) (rpt := rpt) k x A hS.hpgn hS.fields hS.noField
  constructor
  · rintro ⟨hc, hfr⟩
    have hs := s2 hc (aF.mpr hfr)
    rw [bF]
    constructor
    · rw [e, b1, hs]
      simp only [textPart_append, a1]
      split <;> rfl
    · rw [hs]
      constructor
      · intro h
        by_contra hne
        obtain ⟨f, hf, hfd⟩ := hS.date
        have := h f hf
        have ht : (merge A.used (F.2.fieldset.parse env msg.data).2).get f.2 = true :=
          (merge_get akeys _ _ _).mpr (Or.inr ⟨hne, Or.inl hfd⟩)
        simp only at this
        rw [ht] at this; cases this
      · intro h f hf
        by_contra hx
        rcases (merge_get (env := env) akeys _ _ _).mp (by simpa using hx) with h' | ⟨h', _⟩
        · have := aF.mpr hfr f hf; rw [h'] at this; cases this
        · exact h' h
  · intro hn
    have hs := s1 (fun h => hn ⟨h.1, aF.mp h.2⟩)
    rw [bF, hs, aF, e, b1, hs, a1]
    exact ⟨rfl, Iff.rfl⟩

/-- All data fields: how often the text appears. -/
theorem loop_text (hS : Separate ps msg.pgn rpt F pre post) : ∀ (order : List (Int × Option α)) (acc : Acc α),
    (acc.used.map Prod.fst).Nodup →
    (Fresh F acc.used → textPart (order.foldl (fun acc e => ps.foldl (groupPure env msg rpt e.1 e.2) acc) acc).values =
      textPart acc.values ++ open Classical in
      if complete env msg.data F.2.fieldset ∧ dotted F.1.path ≠ [] then
        List.replicate (if (F.2.fieldset.parse env msg.data).2 = [] then order.length else min 1 order.length)
          (dotted F.1.path, (F.2.fieldset.parse env msg.data).1)
      else []) ∧
    (¬ Fresh F acc.used → textPart (order.foldl (fun acc e => ps.foldl (groupPure env msg rpt e.1 e.2) acc) acc).values =
      textPart acc.values) := by
  classical
  intro order
  induction order with
  | nil =>
    intro acc _
    refine ⟨fun _ => ?_, fun _ => rfl⟩
    split <;> simp
  | cons e order ih =>
    intro acc hk
    obtain ⟨c1, c2⟩ := entry_text (env := env) hS e.1 e.2 acc hk
    have hk' : ((ps.foldl (groupPure env msg rpt e.1 e.2) acc).used.map Prod.fst).Nodup := by
      obtain ⟨_, E⟩ := entry_facts (env := env) (msg := msg) (rpt := rpt) ps e acc hk
      exact E.keys
    obtain ⟨i1, i2⟩ := ih _ hk'
    rw [List.foldl_cons]
    constructor
    · intro hfr
      by_cases hc : complete env msg.data F.2.fieldset
      · obtain ⟨d1, d2⟩ := c1 ⟨hc, hfr⟩
        by_cases hpa : (F.2.fieldset.parse env msg.data).2 = []
        · rw [i1 (d2.mpr hpa), d1]
          simp only [hc, true_and, hpa, if_true]
          by_cases hd : dotted F.1.path = []
          · simp [hd]
          · simp [hd, List.replicate_succ]
        · rw [i2 (fun h => hpa (d2.mp h)), d1]
          simp only [hc, true_and, hpa, if_false]
          by_cases hd : dotted F.1.path = []
          · simp [hd]
          · have : min 1 (e :: order).length = 1 := by simp
            rw [this]
            simp [hd]
      · obtain ⟨d1, d2⟩ := c2 (fun h => hc h.1)
        rw [i1 (d2.mpr hfr), d1]
        simp [hc]
    · intro hfr
      obtain ⟨d1, d2⟩ := c2 (fun h => hfr h.2)
      rw [i2 (fun h => hfr (d2.mp h)), d1]
end

/-- A sublist that keeps every contributing entry. -/
theorem filterMap_sub {β γ : Type} (f : β → Option γ) {src l : List β} (hs : src.Sublist l) (hnd : l.Nodup)
    (h : ∀ e ∈ l, f e ≠ none → e ∈ src) : src.filterMap f = l.filterMap f := by
  induction hs with
  | slnil => rfl
  | @cons s l a hs ih =>
    have hna : f a = none := by
      by_contra hn
      exact (List.nodup_cons.mp hnd).1 (hs.subset (h a (by simp) hn))
    rw [List.filterMap_cons, hna]
    exact ih (List.nodup_cons.mp hnd).2 (fun e he hn => h e (by simp [he]) hn)
  | @cons_cons s l a hs ih =>
    have := ih (List.nodup_cons.mp hnd).2 (fun e he hn => by
      rcases List.mem_cons.mp (h e (by simp [he]) hn) with rfl | h'
      · exact absurd he (List.nodup_cons.mp hnd).1
      · exact h')
    rw [List.filterMap_cons, List.filterMap_cons, this]

theorem perm_parts (vs : List (Str × Value α)) :
    vs.Perm ((plainPart vs).map (fun c => (c.1, Value.plain c.2)) ++
      (textPart vs).map (fun c => (c.1, Value.text c.2))) := by
  induction vs with
  | nil => exact List.Perm.refl _
  | cons e vs ih =>
    obtain ⟨p, w⟩ := e
    cases w with
    | plain v =>
      have e1 : plainPart ((p, Value.plain v) :: vs) = (p, v) :: plainPart vs := rfl
      have e2 : textPart ((p, Value.plain v) :: vs) = textPart vs := rfl
      rw [e1, e2, List.map_cons, List.cons_append]
      exact ih.cons _
    | text s =>
      have e1 : plainPart ((p, Value.text (α := α) s) :: vs) = plainPart vs := rfl
      have e2 : textPart ((p, Value.text (α := α) s) :: vs) = (p, s) :: textPart vs := rfl
      rw [e1, e2, List.map_cons]
      exact (ih.cons _).trans List.perm_middle.symm

/-- The delta for a PGN with one separate fieldset: the contributions of the data fields, and the text of
the fieldset if it is complete — once if its fields were times, else once per data field. -/
theorem separate_exact {F : Mapping × Group} {pre post : List (Mapping × Group)}
    {r : Option (List (Update α))} (h : delta env reps maps msg = .ok r)
    (hnd : (msg.data.map Prod.fst).Nodup) (hS : Separate (pairs maps) msg.pgn (rep reps msg) F pre post) :
    plainPart (valuesOf r) = msg.data.filterMap (contribution env (pairs maps) msg (rep reps msg)) ∧
    textPart (valuesOf r) = open Classical in
      if complete env msg.data F.2.fieldset ∧ dotted F.1.path ≠ [] then
        List.replicate (if (F.2.fieldset.parse env msg.data).2 = [] then msg.data.length
          else min 1 msg.data.length) (dotted F.1.path, (F.2.fieldset.parse env msg.data).1)
      else [] := by
  classical
  constructor
  · obtain ⟨⟨src, hs, hp, hin⟩, _⟩ := delta_facts h hnd
    rw [hp]
    refine filterMap_sub _ hs ((List.pairwise_map.mp hnd).imp (fun h h' => h (congrArg Prod.fst h'))) ?_
    intro e he hne
    refine hin e he ?_
    rintro ⟨pg, hpg, h1, h2, h3⟩
    have hpF : pg = F := by
      rw [hS.split] at hpg
      rcases List.mem_append.mp hpg with hq | hq
      · exact absurd (hS.only pg (by simp [hq]) h1) h2
      · rcases List.mem_cons.mp hq with hq | hq
        · exact hq
        · exact absurd (hS.only pg (by simp [hq]) h1) h2
    subst hpF
    have : ∃ f ∈ pg.2.fieldset.fields, f.2 = e.1 := by
      rcases h3 with h3 | h3
      · obtain ⟨f, hf, hfe⟩ := hS.date; exact ⟨f, hf, by rw [hfe, h3]⟩
      · obtain ⟨f, hf, hfe⟩ := hS.time; exact ⟨f, hf, by rw [hfe, h3]⟩
    obtain ⟨f, hf, hfe⟩ := this
    apply hne
    unfold contribution
    rw [List.find?_eq_none.mpr]
    · rfl
    · intro q hq hap
      simp only [decide_eq_true_eq] at hap
      exact hS.unnamed f hf q hq hap.1 (by rw [hfe]; exact hap.2.1)
  · rw [delta_values h]
    have := (loop_text (env := env) hS msg.data ⟨[], []⟩ (by simp)).1 (fun f _ => rfl)
    exact this

/-- Up to order the values do not depend on the iteration order when the PGN has one fieldset, separate
from the fields mapped individually. -/
theorem C56_separate {msg' : Msg α} (hpgn : msg.pgn = msg'.pgn) (hi : msg.index = msg'.index)
    (hnd : (msg.data.map Prod.fst).Nodup) (hp : msg.data.Perm msg'.data)
    {F : Mapping × Group} {pre post : List (Mapping × Group)}
    (hS : Separate (pairs maps) msg.pgn (rep reps msg) F pre post)
    {r : Option (List (Update α))} (h : delta env reps maps msg = .ok r) :
    ∃ r', delta env reps maps msg' = .ok r' ∧ (valuesOf r').Perm (valuesOf r) := by
  obtain ⟨r', h'⟩ := delta_ok_perm hpgn hi hp h
  have hnd' : (msg'.data.map Prod.fst).Nodup := (hp.map Prod.fst).nodup_iff.mp hnd
  refine ⟨r', h', ?_⟩
  have hrep : rep reps msg = rep reps msg' := by unfold rep; rw [hi]
  have hget := get_perm hp hnd
  have hS' : Separate (pairs maps) msg'.pgn (rep reps msg') F pre post := by rw [← hpgn, ← hrep]; exact hS
  obtain ⟨p1, t1⟩ := separate_exact h hnd hS
  obtain ⟨p2, t2⟩ := separate_exact h' hnd' hS'
  have hc := congrFun (contribution_congr (env := env) hpgn hget) (pairs maps)
  refine (perm_parts _).trans (List.Perm.trans ?_ (perm_parts _).symm)
  rw [p1, p2, t1, t2, ← hrep, ← hc, ← complete_congr hget, ← parse_congr hget, hp.length_eq]
  exact ((hp.symm.filterMap _).map _).append_right _

end Argo.Signalk
