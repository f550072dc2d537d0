import Verif.Signalk.Props2

set_option autoImplicit false

/-!
# Exactly what Delta reports with the shipped mapping file (C99)
-/

namespace Argo.Signalk

open Argo Argo.Signalk.Spec

/-! ## Specification -/

section
variable {α : Type}

/-- `data` has a value for field `k` that is not nil and not the empty string. -/
def Present (env : Env α) (data : Data α) (k : Int) (v : α) : Prop := data.get k = some v ∧ env.isEmpty v = false

/-- The texts made of a system time message: none without a date (field 3) and a time (field 4); one if both
are times, showing the date of the one and the clock of the other, with the whole days of the clock (five days at most)
added to the date; if one of them is not a time, an empty
text for every field of the message. -/
def TimeTexts (env : Env α) (data : Data α) (texts : List (Str × Str)) : Prop :=
  (texts = [] ∧ ¬ ∃ vd vt, Present env data 3 vd ∧ Present env data 4 vt) ∨
  ∃ vd vt, Present env data 3 vd ∧ Present env data 4 vt ∧
    ((∃ dt tm t, env.asTime vd = some dt ∧ env.asTime vt = some tm ∧ texts = [(bs "system.currentTime", t)] ∧
        ∀ u s off, dt = ⟨u, off⟩ → tm = Time.date 1970 1 1 s off → 0 ≤ s → s < 432000 →
          ∃ st : Stamp, t = env.render st ∧ (st.year, st.month, st.day) = civil ((u + off) / 86400 + s / 86400) ∧
            st.hour = s % 86400 / 3600 ∧ st.minute = s / 60 % 60 ∧ st.second = s % 60 ∧ st.off = off) ∨
     ((env.asTime vd = none ∨ env.asTime vt = none) ∧
        texts = List.replicate data.length (bs "system.currentTime", [])))

/-- What the shipped mapping file says about a message whose definition repeats the last `rpt` fields: every data
field contributes its value under the path of the first group that applies to it, in the order in which the
fields are taken, and a system time message its texts. -/
def Reported (env : Env α) (rpt : Nat) (msg : Msg α) (values : List (Str × Value α)) : Prop :=
  plainPart values = msg.data.filterMap (contribution env (pairs MapTable.maps) msg rpt) ∧
  (msg.pgn = 126992 → TimeTexts env msg.data (textPart values)) ∧
  (msg.pgn ≠ 126992 → textPart values = [])

end

/-! ## Proofs -/

section
variable {α : Type} {env : Env α} {reps : List Nat} {msg : Msg α}

theorem time_texts {r : Option (List (Update α))} (h : delta env reps MapTable.maps msg = .ok r)
    (hnd : (msg.data.map Prod.fst).Nodup) (hpgn : msg.pgn = 126992) :
    TimeTexts env msg.data (textPart (valuesOf r)) := by
  classical
  obtain ⟨_, ht⟩ := separate_exact (env := env) (F := timePair) h hnd
    (by rw [hpgn]; exact shipped_separate _)
  have hdl : timePair.2.fieldset.lookup (bs "date") = 3 := by decide +kernel
  have htl : timePair.2.fieldset.lookup (bs "time") = 4 := by decide +kernel
  have hty : timePair.2.fieldset.type = bs "datetime" := by decide +kernel
  have hfields : timePair.2.fieldset.fields = [(bs "date", 3), (bs "time", 4)] := by decide +kernel
  have hdot : dotted timePair.1.path = bs "system.currentTime" := by decide +kernel
  have hne : dotted timePair.1.path ≠ [] := by decide +kernel
  have hcomp : complete env msg.data timePair.2.fieldset ↔
      ∃ vd vt, Present env msg.data 3 vd ∧ Present env msg.data 4 vt := by
    unfold complete
    rw [hfields]
    constructor
    · intro hc
      obtain ⟨vd, h1, h2⟩ := hc (bs "date", 3) (by simp)
      obtain ⟨vt, h3, h4⟩ := hc (bs "time", 4) (by simp)
      exact ⟨vd, vt, ⟨h1, h2⟩, ⟨h3, h4⟩⟩
    · rintro ⟨vd, vt, ⟨h1, h2⟩, ⟨h3, h4⟩⟩ f hf
      simp only [List.mem_cons, List.not_mem_nil, or_false] at hf
      rcases hf with rfl | rfl
      · exact ⟨vd, h1, h2⟩
      · exact ⟨vt, h3, h4⟩
  rw [ht]
  by_cases hc : ∃ vd vt, Present env msg.data 3 vd ∧ Present env msg.data 4 vt
  · rw [if_pos ⟨hcomp.mpr hc, hne⟩]
    obtain ⟨vd, vt, hd, hv⟩ := hc
    refine Or.inr ⟨vd, vt, hd, hv, ?_⟩
    have hpar : timePair.2.fieldset.parse env msg.data = match env.asTime vd, env.asTime vt with
        | some dt, some tm => (env.render (tm.addDate ((civil dt.day).1 - 1970) ((civil dt.day).2.1 - 1)
            ((civil dt.day).2.2 - 1)).stamp, mapPut (mapPut [] 3 true) 4 true)
        | _, _ => ([], []) := by
      unfold Fieldset.parse
      simp only
      rw [if_pos hty, hdl, htl, hd.1, hv.1]
      simp only [Option.bind_some]
      cases env.asTime vd <;> cases env.asTime vt <;> rfl
    cases h1 : env.asTime vd with
    | none =>
      right
      rw [h1] at hpar
      simp only at hpar
      rw [hpar, hdot]
      exact ⟨Or.inl rfl, by simp⟩
    | some dt =>
      cases h2 : env.asTime vt with
      | none =>
        right
        rw [h1, h2] at hpar
        simp only at hpar
        rw [hpar, hdot]
        exact ⟨Or.inr rfl, by simp⟩
      | some tm =>
        left
        rw [h1, h2] at hpar
        simp only at hpar
        have hlen : min 1 msg.data.length = 1 := by
          have : msg.data ≠ [] := by
            intro h0; have := hd.1; rw [h0] at this; simp [Data.get, mapFind] at this
          have := List.length_pos_iff.mpr this
          omega
        have hused : mapPut (mapPut ([] : BoolMap) 3 true) 4 true ≠ [] := by decide
        refine ⟨dt, tm, (timePair.2.fieldset.parse env msg.data).1, rfl, rfl, ?_, ?_⟩
        · rw [hdot, if_neg (by rw [hpar]; exact hused), hlen]; rfl
        · intro u s off e1 e2 s0 s1
          subst e1 e2
          obtain ⟨st, p1, p2⟩ := C61_any (env := env) (fs := timePair.2.fieldset) msg.data hty
            (by rw [hdl]; exact hd.1) h1 (by rw [htl]; exact hv.1) h2 s0 s1
          exact ⟨st, by rw [p1], p2⟩
  · rw [if_neg (fun h => hc (hcomp.mp h.1))]
    exact Or.inl ⟨rfl, hc⟩

/-- What Delta reports of a message, for the shipped mapping file: all of it and nothing else. -/
theorem C99_delta {r : Option (List (Update α))} (h : delta env reps MapTable.maps msg = .ok r)
    (hnd : (msg.data.map Prod.fst).Nodup) {rpt : Nat} (hr : reps[msg.index]? = some rpt) :
    ∃ values, Reported env rpt msg values ∧
      r = if values = [] then none else some [⟨msg.pgn, msg.source, values⟩] := by
  have hrep : rep reps msg = rpt := by unfold rep; rw [hr]; rfl
  refine ⟨valuesOf r, ?_, ?_⟩
  · by_cases h1 : msg.pgn = 126992
    · obtain ⟨hp, _⟩ := separate_exact (env := env) (F := timePair) h hnd
        (by rw [h1]; exact shipped_separate _)
      rw [hrep] at hp
      exact ⟨hp, fun _ => time_texts h hnd h1, fun hc => absurd h1 hc⟩
    · have he := C55_exact h hnd (fun mp m1 g m2 hg => shipped_fieldsets mp m1 g m2 (by rw [hg]; exact h1))
      rw [hrep] at he
      refine ⟨?_, fun hc => absurd hc h1, fun _ => ?_⟩
      · rw [he]
        generalize msg.data.filterMap _ = l
        induction l with
        | nil => rfl
        | cons a l ih =>
          show (a.1, a.2) :: plainPart (l.map fun c => (c.1, Value.plain c.2)) = a :: l
          rw [ih]
      · rw [he]
        generalize msg.data.filterMap _ = l
        induction l with
        | nil => rfl
        | cons a l ih => exact ih
  · obtain ⟨h1, h2⟩ := C57_update h
    cases r with
    | none => rw [if_pos (h1.mp rfl)]
    | some us =>
      obtain ⟨u, rfl, e1, e2, e3⟩ := h2 us rfl
      have : valuesOf (some [u]) = u.values := by simp [valuesOf]
      rw [this, if_neg e3, ← e1, ← e2]

/-- A system time message whose fields are taken in the order time, source, date. -/
example : ∃ r, delta westEnv [0] MapTable.maps
    ⟨126992, 7, 0, [(4, some (bs "t")), (1, some (bs "GPS")), (3, some (bs "d"))]⟩ = .ok r ∧
    ∃ values, Reported westEnv 0 ⟨126992, 7, 0, [(4, some (bs "t")), (1, some (bs "GPS")), (3, some (bs "d"))]⟩ values ∧
      values ≠ [] ∧ r = some [⟨126992, 7, values⟩] := by
  obtain ⟨r, hr⟩ : ∃ r, delta westEnv [0] MapTable.maps
      ⟨126992, 7, 0, [(4, some (bs "t")), (1, some (bs "GPS")), (3, some (bs "d"))]⟩ = .ok (some r) := by
    cases h : delta westEnv [0] MapTable.maps
        ⟨126992, 7, 0, [(4, some (bs "t")), (1, some (bs "GPS")), (3, some (bs "d"))]⟩ with
    | ok o =>
      cases o with
      | some r => exact ⟨r, rfl⟩
      | none =>
        have : (match delta westEnv [0] MapTable.maps
          ⟨126992, 7, 0, [(4, some (bs "t")), (1, some (bs "GPS")), (3, some (bs "d"))]⟩ with
          | .ok none => true | _ => false) = false := by decide +kernel
        rw [h] at this; cases this
    | error e =>
      have : (match delta westEnv [0] MapTable.maps
        ⟨126992, 7, 0, [(4, some (bs "t")), (1, some (bs "GPS")), (3, some (bs "d"))]⟩ with
        | .error _ => true | _ => false) = false := by decide +kernel
      rw [h] at this; cases this
  obtain ⟨values, h1, h2⟩ := C99_delta hr (by decide) (rpt := 0) rfl
  refine ⟨_, hr, values, h1, ?_, ?_⟩
  · rintro rfl; cases h2
  · rw [h2]
    split
    · rename_i hv; rw [if_pos hv] at h2; cases h2
    · rfl

end

end Argo.Signalk
