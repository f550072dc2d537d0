import Verif.Nmea2k.Variant2
import Std.Data.String.ToInt

set_option autoImplicit false

/-! # C52 (CanBoat import) and C79 (JSON keys) -/

namespace Argo.Nmea2k

open Argo Argo.Nmea2k.Spec

/-- Value of a Go map at a key. -/
def Spec.mapGet {κ α : Type} [DecidableEq κ] (d : List (κ × α)) (k : κ) : Option α :=
  (d.find? (fun e => e.1 = k)).map Prod.snd

theorem mapGet_mapSet {α : Type} (d : List (Nat × α)) (k : Nat) (v : α) (k' : Nat) :
    mapGet (mapSet d k v) k' = if k' = k then some v else mapGet d k' := by
  unfold mapSet mapGet
  split
  · rename_i h
    induction d with
    | nil => simp at h
    | cons e d ih =>
      simp only [List.map_cons]
      by_cases he : e.1 = k
      · simp only [he, if_true]
        by_cases hk : k' = k
        · subst hk; simp
        · rw [if_neg hk, List.find?_cons_of_neg (by simpa using fun h => hk h.symm),
            List.find?_cons_of_neg (by rw [he]; simpa using fun h => hk h.symm)]
          by_cases hd : d.any (fun e => decide (e.1 = k)) = true
          · have := ih hd
            rw [if_neg hk] at this
            exact this
          · congr 2
            conv => rhs; rw [← List.map_id d]
            apply List.map_congr_left
            intro x hx
            rw [if_neg]; rfl
            intro hxk
            exact hd (List.any_eq_true.mpr ⟨x, hx, by simpa using hxk⟩)
      · rw [if_neg he]
        by_cases hek : e.1 = k'
        · rw [List.find?_cons_of_pos (by simpa using hek), List.find?_cons_of_pos (by simpa using hek),
            if_neg (by intro h; exact he (hek.trans h))]
        · rw [List.find?_cons_of_neg (by simpa using hek), List.find?_cons_of_neg (by simpa using hek)]
          refine ih ?_
          simpa [he] using h
  · rename_i h
    rw [List.find?_append]
    by_cases hk : k' = k
    · subst hk
      have : d.find? (fun e => decide (e.1 = k')) = none := by
        rw [List.find?_eq_none]
        intro x hx hxk
        exact h (List.any_eq_true.mpr ⟨x, hx, hxk⟩)
      rw [this, if_pos rfl]; simp
    · rw [if_neg hk]
      have : List.find? (fun e => decide (e.1 = k')) [(k, v)] = none := by
        simp; exact fun h => hk h.symm
      rw [this, Option.or_none]

theorem assignName_get {α : Type} (n : String) (v : α) (fs : List Field) : ∀ (kk : Nat) (dd : List (Nat × α)) (k : Nat),
    mapGet (assignName n v kk fs dd) k =
      if (kk ≤ k ∧ ∃ f, fs[k - kk]? = some f ∧ f.name = n) then some v else mapGet dd k := by
  induction fs with
  | nil => intro kk dd k; simp [assignName]
  | cons f fs ih =>
    intro kk dd k
    unfold assignName
    rw [ih]
    by_cases hk : kk + 1 ≤ k
    · have e : k - kk = (k - (kk + 1)) + 1 := by omega
      have hne : k ≠ kk := by omega
      simp only [e, List.getElem?_cons_succ]
      have h1 : (kk + 1 ≤ k) = True := by simpa using hk
      have h2 : (kk ≤ k) = True := by simp; omega
      simp only [h1, h2, true_and]
      split
      · rfl
      · split
        · rw [mapGet_mapSet, if_neg hne]
        · rfl
    · rw [if_neg (fun h => hk h.1)]
      by_cases he : k = kk
      · subst he
        simp only [Nat.sub_self, List.getElem?_cons_zero, Option.some.injEq, Nat.le_refl, true_and,
          exists_eq_left']
        split
        · rw [mapGet_mapSet, if_pos rfl]
        · rfl
      · have hr : ¬ (kk ≤ k ∧ ∃ f', (f :: fs)[k - kk]? = some f' ∧ f'.name = n) := fun h => by
          have := h.1; omega
        rw [if_neg hr]
        by_cases hn : f.name = n
        · rw [if_pos hn, mapGet_mapSet, if_neg he]
        · rw [if_neg hn]

theorem assignAll_get {α : Type} (fs : List Field) (k : Nat) : ∀ (es : List (String × α)) (dd : List (Nat × α)),
    (es.map Prod.fst).Nodup →
    mapGet (es.foldl (fun dd e => assignName e.1 e.2 0 fs dd) dd) k =
      match fs[k]? with
      | some f => (mapGet es f.name).or (mapGet dd k)
      | none => mapGet dd k := by
  intro es
  induction es with
  | nil => intro dd _; cases fs[k]? <;> simp [mapGet]
  | cons e es ih =>
    intro dd hnd
    simp only [List.map_cons, List.nodup_cons] at hnd
    rw [List.foldl_cons, ih _ hnd.2]
    simp only [assignName_get, Nat.zero_le, true_and, Nat.sub_zero]
    cases hf : fs[k]? with
    | none => simp
    | some f =>
      simp only [Option.some.injEq, exists_eq_left']
      by_cases he : f.name = e.1
      · rw [if_pos he]
        have : mapGet es f.name = none := by
          unfold mapGet
          rw [List.find?_eq_none.mpr]; rfl
          intro x hx hxe
          apply hnd.1
          have hxe : x.1 = f.name := by simpa using hxe
          rw [← he, ← hxe]
          exact List.mem_map_of_mem hx
        rw [this]
        have h2 : mapGet (e :: es) f.name = some e.2 := by
          unfold mapGet
          rw [List.find?_cons_of_pos (by simpa using he.symm)]; rfl
        rw [h2]; simp
      · rw [if_neg he]
        have h2 : mapGet (e :: es) f.name = mapGet es f.name := by
          unfold mapGet
          rw [List.find?_cons_of_neg (by simpa using fun h => he h.symm)]
        rw [h2]

/-- C52: when the PGN of the line has a single definition, or none, FromCanBoat keeps the header and
gives field index `k` the value under that field's name, if the line has one; no other index gets a
value.  `fields` is the JSON object in an arbitrary order (its keys are distinct). -/
theorem C52_import {α τ : Type} (tbl : List Pgn) (unmarshal : τ → CanBoat α) (line : τ)
    {i : Nat} {d : Pgn} (hf : first tbl (unmarshal line).pgn = .ok (i, d))
    (hl : last tbl (unmarshal line).pgn = .ok (i, d))
    (hnd : ((unmarshal line).fields.map Prod.fst).Nodup) :
    ∃ r, fromCanBoat tbl unmarshal line = .ok (some r) ∧ r.index = i ∧
      r.pgn = (unmarshal line).pgn ∧ r.priority = (unmarshal line).priority ∧
      r.source = (unmarshal line).source ∧ r.destination = (unmarshal line).destination ∧
      ∀ k, mapGet r.data k = (d.fieldList[k]?).bind (fun f => mapGet (unmarshal line).fields f.name) := by
  unfold fromCanBoat
  simp only [hf, hl, bind, Except.bind, pure, Except.pure]
  rw [if_neg (by simp)]
  refine ⟨_, rfl, rfl, rfl, rfl, rfl, rfl, fun k => ?_⟩
  simp only
  rw [assignAll_get _ _ _ _ hnd]
  cases d.fieldList[k]? <;> simp [mapGet]

theorem mapGet_perm {κ α : Type} [DecidableEq κ] {a b : List (κ × α)} (h : a.Perm b)
    (hnd : (a.map Prod.fst).Nodup) (k : κ) : mapGet a k = mapGet b k := by
  have key : ∀ (l : List (κ × α)), (l.map Prod.fst).Nodup → ∀ v, mapGet l k = some v ↔ (k, v) ∈ l := by
    intro l
    induction l with
    | nil => intro _ v; simp [mapGet]
    | cons e l ih =>
      intro hl v
      simp only [List.map_cons, List.nodup_cons] at hl
      unfold mapGet
      by_cases he : e.1 = k
      · rw [List.find?_cons_of_pos (by simpa using he)]
        simp only [Option.map_some, Option.some.injEq, List.mem_cons]
        constructor
        · intro h; left; rw [← h, ← he]
        · rintro (h | h)
          · rw [← h]
          · exact absurd (List.mem_map_of_mem (f := Prod.fst) h) (by simpa [he] using hl.1)
      · rw [List.find?_cons_of_neg (by simpa using he)]
        rw [show (List.find? (fun e => decide (e.1 = k)) l).map Prod.snd = mapGet l k from rfl, ih hl.2 v]
        simp only [List.mem_cons]
        constructor
        · exact Or.inr
        · rintro (h | h)
          · rw [← h] at he; exact absurd rfl he
          · exact h
  have hnb : (b.map Prod.fst).Nodup := (h.map Prod.fst).nodup_iff.mp hnd
  cases ha : mapGet a k with
  | some v => exact ((key b hnb v).mpr (h.mem_iff.mp ((key a hnd v).mp ha))).symm
  | none =>
    cases hb : mapGet b k with
    | none => rfl
    | some v =>
      have := (key a hnd v).mpr (h.mem_iff.mpr ((key b hnb v).mp hb))
      rw [ha] at this; cases this

/-- C52: the result does not depend on the order in which the JSON object is iterated: same verdict,
same index, same value at every field index. -/
theorem C52_order {α τ : Type} (tbl : List Pgn) (u u' : τ → CanBoat α) (line : τ)
    (hp : (u line).pgn = (u' line).pgn) (hperm : (u line).fields.Perm (u' line).fields)
    (hnd : ((u line).fields.map Prod.fst).Nodup) {r : CanBoatParsed α}
    (h : fromCanBoat tbl u line = .ok (some r)) :
    ∃ r', fromCanBoat tbl u' line = .ok (some r') ∧ r'.index = r.index ∧
      ∀ k, mapGet r'.data k = mapGet r.data k := by
  cases hf : first tbl (u line).pgn with
  | error e => simp [fromCanBoat, hf, bind, Except.bind] at h
  | ok t =>
    cases hl : last tbl (u line).pgn with
    | error e => simp [fromCanBoat, hf, hl, bind, Except.bind] at h
    | ok t' =>
      obtain ⟨i, d⟩ := t
      obtain ⟨j, q⟩ := t'
      have hne : tbl ≠ [] := by rintro rfl; simp [first, firstFrom] at hf
      by_cases hij : i = j
      · subst hij
        obtain ⟨i1, p1, e1, e2, _⟩ := C33_first tbl (u line).pgn hne
        obtain ⟨i2, p2, e3, e4, _⟩ := C33_last tbl (u line).pgn hne
        rw [hf] at e1; rw [hl] at e3
        injection e1 with e1; injection e1 with a1 a2
        injection e3 with e3; injection e3 with b1 b2
        subst a1 a2 b1 b2
        rw [e2] at e4; injection e4 with e4; subst e4
        obtain ⟨s, s1, s2, _, _, _, _, s3⟩ := C52_import tbl u line hf hl hnd
        obtain ⟨s', s1', s2', _, _, _, _, s3'⟩ := C52_import tbl u' line (by rw [← hp]; exact hf)
          (by rw [← hp]; exact hl) ((hperm.map Prod.fst).nodup_iff.mp hnd)
        rw [h] at s1; injection s1 with s1; injection s1 with s1; subst s1
        refine ⟨s', s1', by omega, fun k => ?_⟩
        rw [s3, s3']
        cases d.fieldList[k]? with
        | none => rfl
        | some f => exact (mapGet_perm hperm hnd f.name).symm
      · exfalso
        simp only [fromCanBoat, hf, hl, bind, Except.bind, pure, Except.pure] at h
        rw [if_pos hij] at h
        injection h with h; cases h

/-- C52: a line whose PGN has several definitions is rejected. -/
theorem C52_multiple {α τ : Type} (tbl : List Pgn) (unmarshal : τ → CanBoat α) (line : τ)
    {i j : Nat} (hdef : definitions tbl (unmarshal line).pgn i j) (hij : i < j) :
    fromCanBoat tbl unmarshal line = .ok none := by
  obtain ⟨d, q, hf, hl, _, _⟩ := first_last_of_definitions hdef
  simp only [fromCanBoat, hf, hl, bind, Except.bind, pure, Except.pure]
  rw [if_pos (by omega)]

theorem first_zero : first Table.pgnList 0 = .ok (0, Table.p0) := by decide +kernel
theorem last_zero : last Table.pgnList 0 = .ok (0, Table.p0) := by decide +kernel

/-- C52, last part, is false: every line that does not parse is accepted as a message of PGN 0 with
index 0 and no data. -/
theorem C52_false {α τ : Type} (unmarshal : τ → CanBoat α) (line : τ)
    (h : unmarshal line = CanBoat.zero) :
    ∃ r, fromCanBoat Table.pgnList unmarshal line = .ok (some r) ∧ r.pgn = 0 ∧ r.index = 0 ∧ r.data = [] := by
  unfold fromCanBoat
  rw [h]
  have h1 : first Table.pgnList (CanBoat.zero (α := α)).pgn = .ok (0, Table.p0) := first_zero
  have h2 : last Table.pgnList (CanBoat.zero (α := α)).pgn = .ok (0, Table.p0) := last_zero
  simp only [h1, h2, bind, Except.bind, pure, Except.pure]
  rw [if_neg (by simp)]
  exact ⟨_, rfl, rfl, rfl, rfl⟩

/-- The hypotheses of `C52_import` for a rudder message. -/
example : first Table.pgnList 127245 = .ok (76, Table.p76) ∧ last Table.pgnList 127245 = .ok (76, Table.p76) ∧
    (([("Position", 1), ("Instance", 2)] : List (String × Nat)).map Prod.fst).Nodup :=
  ⟨by decide +kernel, by decide +kernel, by decide⟩

/-! ## C79 -/

theorem toString_int_injective {a b : Int} (h : toString a = toString b) : a = b := by
  have ha := Int.toInt?_repr a
  have hb := Int.toInt?_repr b
  have : a.repr = b.repr := h
  rw [this, hb] at ha
  injection ha with ha
  exact ha.symm

/-- The value stored by a fold of map writes: the last one with that key; here keys are distinct. -/
theorem marshalKeys_eq {α : Type} (d : List (Int × α)) (hnd : (d.map Prod.fst).Nodup) :
    marshalKeys d = d.map (fun e => (toString e.1, e.2)) := by
  suffices H : ∀ (d acc : List (Int × α)), ((acc ++ d).map Prod.fst).Nodup →
      d.foldl (fun out e =>
        let k := toString e.1
        if out.any (fun x => x.1 = k) then out.map (fun x => if x.1 = k then (k, e.2) else x)
        else out ++ [(k, e.2)]) (acc.map (fun e => (toString e.1, e.2))) =
      (acc ++ d).map (fun e => (toString e.1, e.2)) by
    have := H d [] (by simpa using hnd)
    simpa [marshalKeys] using this
  intro d
  induction d with
  | nil => intro acc _; simp
  | cons e d ih =>
    intro acc hnd
    rw [List.foldl_cons]
    have hno : (acc.map (fun e => (toString e.1, e.2))).any (fun x => x.1 = toString e.1) = false := by
      rw [List.any_eq_false]
      intro x hx hxe
      obtain ⟨y, hy, rfl⟩ := List.mem_map.mp hx
      have := toString_int_injective (by simpa using hxe)
      rw [List.map_append, List.nodup_append] at hnd
      exact hnd.2.2 y.1 (List.mem_map_of_mem hy) e.1 (by simp) this
    simp only [hno]
    have := ih (acc ++ [e]) (by simpa using hnd)
    simpa using this

/-- C79: the JSON object has, for every field index, the value of that index under its decimal
representation, and no other keys; distinct indices have distinct keys. -/
theorem C79_marshal {α : Type} (d : List (Int × α)) (hnd : (d.map Prod.fst).Nodup) :
    (∀ k : Int, mapGet (marshalKeys d) (toString k) = mapGet d k) ∧
    ((marshalKeys d).map Prod.fst).Nodup ∧
    ∀ s, s ∈ (marshalKeys d).map Prod.fst → ∃ k ∈ d.map Prod.fst, s = toString k := by
  rw [marshalKeys_eq d hnd]
  refine ⟨fun k => ?_, ?_, ?_⟩
  · unfold mapGet
    induction d with
    | nil => rfl
    | cons e d ih =>
      simp only [List.map_cons, List.nodup_cons] at hnd
      rw [List.map_cons]
      by_cases he : e.1 = k
      · rw [List.find?_cons_of_pos (by simp [he]), List.find?_cons_of_pos (by simpa using he)]; rfl
      · rw [List.find?_cons_of_neg, List.find?_cons_of_neg (by simpa using he)]
        · exact ih hnd.2
        · intro h; exact he (toString_int_injective (by simpa using h))
  · rw [List.map_map]
    have : (Prod.fst ∘ fun e : Int × α => (toString e.1, e.2)) = toString ∘ Prod.fst := rfl
    rw [this, ← List.map_map]
    exact List.Pairwise.map _ (fun a b h h' => h (toString_int_injective h')) hnd
  · intro s hs
    rw [List.map_map] at hs
    obtain ⟨x, hx, rfl⟩ := List.mem_map.mp hs
    exact ⟨x.1, List.mem_map_of_mem hx, rfl⟩

example : ([(0, "a"), (7, "b"), (-3, "c")].map Prod.fst : List Int).Nodup ∧
    marshalKeys [((0 : Int), "a"), (7, "b"), (-3, "c")] = [("0", "a"), ("7", "b"), ("-3", "c")] := by
  decide +kernel

end Argo.Nmea2k
