import Verif.Hub.Spec
import Mathlib.Data.List.Induction
import Mathlib.Data.List.Perm.Basic

set_option autoImplicit false

/-! # C63–C66: the hub -/

namespace Argo.Hub

open Argo Argo.Hub.Spec

variable {Msg : Type} [DecidableEq Msg]

/-! ## Schedules -/

theorem exec_snoc (s : State Msg) (es : List (Event Msg)) (e : Event Msg) :
    exec s (es ++ [e]) = match exec s es with
      | some (.ok s') => step s' e
      | r => r := by
  induction es generalizing s with
  | nil =>
    simp only [List.nil_append, exec]
    cases step s e with
    | none => rfl
    | some r => cases r <;> rfl
  | cons x es ih =>
    simp only [List.cons_append, exec]
    cases step s x with
    | none => rfl
    | some r =>
      cases r with
      | error _ => rfl
      | ok s' => exact ih s'

theorem exec_snoc_ok {s s' : State Msg} {es : List (Event Msg)} {e : Event Msg}
    (h : exec s (es ++ [e]) = some (.ok s')) :
    ∃ s1, exec s es = some (.ok s1) ∧ step s1 e = some (.ok s') := by
  rw [exec_snoc] at h
  cases h1 : exec s es with
  | none => rw [h1] at h; cases h
  | some r =>
    cases r with
    | error _ => rw [h1] at h; cases h
    | ok s1 => rw [h1] at h; exact ⟨s1, rfl, h⟩

theorem exec_append {s : State Msg} {a b : List (Event Msg)} {s1 : State Msg} (h : exec s a = some (.ok s1)) :
    exec s (a ++ b) = exec s1 b := by
  induction a generalizing s with
  | nil => simp only [exec, Option.some.injEq, Except.ok.injEq] at h; rw [h]; rfl
  | cons x a ih =>
    simp only [List.cons_append, exec] at h ⊢
    cases hs : step s x with
    | none => rw [hs] at h; cases h
    | some r =>
      rw [hs] at h
      cases r with
      | error _ => cases h
      | ok s' => exact ih h

theorem touched_append (a b : List (Event Msg)) : touched (a ++ b) = touched a ++ touched b := by
  induction a with
  | nil => rfl
  | cons e a ih => cases e <;> simp [touched, ih]

theorem broadcasts_append (a b : List (Event Msg)) : broadcasts (a ++ b) = broadcasts a ++ broadcasts b := by
  induction a with
  | nil => rfl
  | cons e a ih => cases e <;> simp [broadcasts, ih]

theorem since_append (c : Id) (a b : List (Event Msg)) :
    since c (a ++ b) = if registered c a then since c a ++ broadcasts b else since c b := by
  induction a with
  | nil => simp [registered]
  | cons e a ih =>
    cases e with
    | register d =>
      simp only [List.cons_append, since, registered, List.mem_cons, Event.register.injEq]
      by_cases h : d = c
      · subst h; simp [broadcasts_append]
      · have : ¬ c = d := fun h' => h h'.symm
        simp only [h, if_false, this, false_or]
        exact ih
    | _ =>
      simp only [List.cons_append, since, registered, List.mem_cons, reduceCtorEq, false_or]
      exact ih

theorem since_none {c : Id} {a : List (Event Msg)} (h : ¬ registered c a) : since c a = [] := by
  induction a with
  | nil => rfl
  | cons e a ih =>
    simp only [registered, List.mem_cons, not_or] at h
    cases e with
    | register d =>
      simp only [since]
      rw [if_neg (fun hd => h.1 (by rw [hd]))]
      exact ih h.2
    | _ => exact ih h.2

theorem registered_touched {c : Id} {a : List (Event Msg)} (h : registered c a) : c ∈ touched a := by
  induction a with
  | nil => cases h
  | cons e a ih =>
    rcases List.mem_cons.mp h with rfl | h
    · simp [touched]
    · have := ih h
      cases e <;> simp [touched, this]

theorem fresh_prefix {a b : List (Event Msg)} (h : fresh (a ++ b)) : fresh a := by
  intro x y c hxy
  exact h x (y ++ b) c (by rw [hxy]; simp)

theorem fresh_register {es : List (Event Msg)} {c : Id} (h : fresh (es ++ [.register c])) : c ∉ touched es :=
  h es [] c rfl

/-! ## The invariant -/

/-- What is still to be sent to `c` by the current broadcast. -/
def pend (s : State Msg) (c : Id) : List Msg :=
  match s.pc with
  | .idle => []
  | .sending m todo => if c ∈ todo then [m] else []

structure Inv (es : List (Event Msg)) (s : State Msg) : Prop where
  nodup : s.conns.Nodup
  isOpen : ∀ c ∈ s.conns, (s.chan c).closed = false
  todo : ∀ m todo, s.pc = .sending m todo → todo.Nodup ∧ ∀ c ∈ todo, c ∈ s.conns
  fresh : ∀ c, c ∉ touched es → s.chan c = ⟨[], false⟩ ∧ s.got c = [] ∧ c ∉ s.conns
  reg : ∀ c ∈ s.conns, registered c es
  deliver : ∀ c ∈ s.conns, s.got c ++ (s.chan c).buf ++ pend s c = since c es
  len : ∀ c, (s.chan c).buf.length ≤ cap

theorem inv_init : Inv [] (init : State Msg) :=
  ⟨by simp [init], fun c h => by simp [init] at h, fun m t h => by simp [init] at h,
    fun c _ => ⟨rfl, rfl, by simp [init]⟩, fun c h => by simp [init] at h,
    fun c h => by simp [init] at h, fun c => by simp [init, cap]⟩

theorem upd_same {β : Type} (f : Id → β) (c : Id) (v : β) : upd f c v c = v := by simp [upd]
theorem upd_other {β : Type} (f : Id → β) {c d : Id} (v : β) (h : d ≠ c) : upd f c v d = f d := by simp [upd, h]

theorem inv_step {es : List (Event Msg)} {e : Event Msg} {s s' : State Msg} (hf : fresh (es ++ [e])) (h : Inv es s)
    (hs : step s e = some (.ok s')) : Inv (es ++ [e]) s' := by
  have hreg : ∀ c, registered c es → registered c (es ++ [e]) := fun c h => List.mem_append_left _ h
  have htl : ∀ c, c ∉ touched (es ++ [e]) → c ∉ touched es := by
    intro c hc hc'; rw [touched_append] at hc; exact hc (List.mem_append_left _ hc')
  have hsince : ∀ c, registered c es → broadcasts [e] = [] → since c (es ++ [e]) = since c es := by
    intro c hc he; rw [since_append, if_pos hc, he, List.append_nil]
  cases e with
  | register c =>
    have hnew := h.fresh c (fresh_register hf)
    simp only [step] at hs
    split at hs
    · rename_i hpc
      simp only [Option.some.injEq, Except.ok.injEq] at hs
      subst hs
      have hins : insertId s.conns c = s.conns ++ [c] := by unfold insertId; rw [if_neg hnew.2.2]
      have hmem : ∀ d, d ∈ s.conns ++ [c] ↔ d ∈ s.conns ∨ d = c := by intro d; simp
      simp only [hins]
      refine ⟨?_, ?_, ?_, ?_, ?_, ?_, h.len⟩
      · rw [List.nodup_append]
        refine ⟨h.nodup, by simp, ?_⟩
        rintro a ha b hb rfl
        simp only [List.mem_singleton] at hb
        subst hb
        exact hnew.2.2 ha
      · intro d hd
        rcases (hmem d).mp hd with hd | rfl
        · exact h.isOpen d hd
        · simp only [hnew.1]
      · intro m t hpc'; rw [hpc] at hpc'; cases hpc'
      · intro d hd
        have h' := h.fresh d (htl d hd)
        refine ⟨h'.1, h'.2.1, ?_⟩
        intro hdm
        rcases (hmem d).mp hdm with hdm | rfl
        · exact h'.2.2 hdm
        · exact hd (by rw [touched_append]; simp [touched])
      · intro d hd
        rcases (hmem d).mp hd with hd | rfl
        · exact hreg d (h.reg d hd)
        · simp [registered]
      · intro d hd
        have hp : pend { s with conns := s.conns ++ [c] } d = pend s d := rfl
        rw [hp]
        rcases (hmem d).mp hd with hd | rfl
        · rw [hsince d (h.reg d hd) rfl]; exact h.deliver d hd
        · have hnr : ¬ registered d es := fun hr => fresh_register hf (registered_touched hr)
          rw [since_append, if_neg hnr]
          simp only [hnew.1, hnew.2.1, pend, hpc]
          simp [since, broadcasts]
    · cases hs
  | unregister c =>
    simp only [step] at hs
    split at hs
    · rename_i hpc
      split at hs
      · cases hs
      · simp only [Option.some.injEq, Except.ok.injEq] at hs
        subst hs
        have hmem : ∀ d, d ∈ s.conns.erase c ↔ d ≠ c ∧ d ∈ s.conns := fun d => h.nodup.mem_erase_iff
        refine ⟨h.nodup.erase c, ?_, ?_, ?_, ?_, ?_, ?_⟩
        · intro d hd
          have := (hmem d).mp hd
          simp only [upd_other _ _ this.1]
          exact h.isOpen d this.2
        · intro m t hpc'; simp only at hpc'; rw [hpc] at hpc'; cases hpc'
        · intro d hd
          have h' := h.fresh d (htl d hd)
          have hdc : d ≠ c := by
            rintro rfl; exact hd (by rw [touched_append]; simp [touched])
          simp only [upd_other _ _ hdc]
          exact ⟨h'.1, h'.2.1, fun hm => h'.2.2 ((hmem d).mp hm).2⟩
        · intro d hd; exact hreg d (h.reg d ((hmem d).mp hd).2)
        · intro d hd
          have := (hmem d).mp hd
          rw [hsince d (h.reg d this.2) rfl]
          simp only [upd_other _ _ this.1]
          exact h.deliver d this.2
        · intro d
          simp only [upd]
          split
          · exact h.len c
          · exact h.len d
    · cases hs
  | broadcast m order =>
    simp only [step] at hs
    split at hs
    · rename_i hpc
      obtain ⟨hpc, hperm⟩ := hpc
      simp only [Option.some.injEq, Except.ok.injEq] at hs
      subst hs
      refine ⟨h.nodup, h.isOpen, ?_, ?_, ?_, ?_, h.len⟩
      · intro m' t hpc'
        simp only [Pc.sending.injEq] at hpc'
        obtain ⟨rfl, rfl⟩ := hpc'
        exact ⟨hperm.nodup_iff.mpr h.nodup, fun c hc => hperm.mem_iff.mp hc⟩
      · intro d hd; exact h.fresh d (htl d hd)
      · intro d hd; exact hreg d (h.reg d hd)
      · intro d hd
        have h1 := h.deliver d hd
        rw [since_append, if_pos (h.reg d hd)]
        simp only [pend, hpc, List.append_nil] at h1
        have h2 : pend { s with pc := .sending m order } d = [m] := by
          simp only [pend]; rw [if_pos (hperm.mem_iff.mpr hd)]
        rw [h2]
        simp only
        rw [h1]
        rfl
    · cases hs
  | read c =>
    simp only [step] at hs
    have hgen : ∀ (v : Chan Msg) (g : List Msg) (sw : Id → Bool), v.closed = (s.chan c).closed →
        g ++ v.buf = s.got c ++ (s.chan c).buf → v.buf.length ≤ cap →
        (c ∉ touched es → v = ⟨[], false⟩ ∧ g = []) →
        Inv (es ++ [.read c]) { s with chan := upd s.chan c v, got := upd s.got c g, saw := sw } := by
      intro v g sw hcl happ hlen hfr
      refine ⟨h.nodup, ?_, h.todo, ?_, ?_, ?_, ?_⟩
      · intro d hd
        by_cases hdc : d = c
        · subst hdc; simp only [upd_same, hcl]; exact h.isOpen d hd
        · simp only [upd_other _ _ hdc]; exact h.isOpen d hd
      · intro d hd
        have h' := h.fresh d (htl d hd)
        by_cases hdc : d = c
        · subst hdc
          simp only [upd_same]
          exact ⟨(hfr (htl d hd)).1, (hfr (htl d hd)).2, h'.2.2⟩
        · simp only [upd_other _ _ hdc]; exact h'
      · intro d hd; exact hreg d (h.reg d hd)
      · intro d hd
        rw [hsince d (h.reg d hd) rfl]
        have h1 := h.deliver d hd
        have h2 : pend { s with chan := upd s.chan c v, got := upd s.got c g, saw := sw } d = pend s d := rfl
        rw [h2]
        by_cases hdc : d = c
        · subst hdc; simp only [upd_same, happ]; exact h1
        · simp only [upd_other _ _ hdc]; exact h1
      · intro d
        by_cases hdc : d = c
        · subst hdc; simp only [upd_same]; exact hlen
        · simp only [upd_other _ _ hdc]; exact h.len d
    split at hs
    · rename_i m rest hbuf
      simp only [Option.some.injEq, Except.ok.injEq] at hs
      subst hs
      refine hgen ⟨rest, (s.chan c).closed⟩ (s.got c ++ [m]) s.saw rfl (by rw [hbuf]; simp) ?_ ?_
      · have := h.len c; rw [hbuf] at this; simp only [List.length_cons] at this; show rest.length ≤ cap; omega
      · intro hc; have := (h.fresh c hc).1; rw [this] at hbuf; cases hbuf
    · rename_i hbuf
      split at hs
      · rename_i hcl
        simp only [Option.some.injEq, Except.ok.injEq] at hs
        subst hs
        have := hgen (s.chan c) (s.got c) (upd s.saw c true) rfl rfl (h.len c)
          (fun hc => ⟨(h.fresh c hc).1, (h.fresh c hc).2.1⟩)
        have e1 : upd s.chan c (s.chan c) = s.chan := by
          funext d; simp only [upd]; split
          · rename_i hd; rw [hd]
          · rfl
        have e2 : upd s.got c (s.got c) = s.got := by
          funext d; simp only [upd]; split
          · rename_i hd; rw [hd]
          · rfl
        rw [e1, e2] at this
        exact this
      · cases hs
  | hub =>
    simp only [step] at hs
    split at hs
    · cases hs
    · rename_i m hpc
      simp only [Option.some.injEq, Except.ok.injEq] at hs
      subst hs
      refine ⟨h.nodup, h.isOpen, fun m' t hpc' => by simp at hpc', fun d hd => h.fresh d (htl d hd),
        fun d hd => hreg d (h.reg d hd), ?_, h.len⟩
      intro d hd
      rw [hsince d (h.reg d hd) rfl]
      have h1 := h.deliver d hd
      simp only [pend, hpc, List.not_mem_nil, if_false] at h1
      exact h1
    · rename_i m c todo hpc
      simp only [Option.some.injEq] at hs
      obtain ⟨htnd, htsub⟩ := h.todo m _ hpc
      rw [List.nodup_cons] at htnd
      have hcc := htsub c (by simp)
      unfold visit at hs
      rw [h.isOpen c hcc] at hs
      simp only [Bool.false_eq_true, if_false] at hs
      have hpend : ∀ d, d ≠ c → (if d ∈ todo then [m] else []) = pend s d := by
        intro d hd
        simp only [pend, hpc, List.mem_cons, hd, false_or]
      have hpc' : pend s c = [m] := by simp [pend, hpc]
      split at hs
      · rename_i hlt
        simp only [Except.ok.injEq] at hs
        subst hs
        refine ⟨h.nodup, ?_, ?_, ?_, fun d hd => hreg d (h.reg d hd), ?_, ?_⟩
        · intro d hd
          by_cases hdc : d = c
          · subst hdc; simp only [upd_same]
          · simp only [upd_other _ _ hdc]; exact h.isOpen d hd
        · intro m' t hp
          simp only [Pc.sending.injEq] at hp
          obtain ⟨rfl, rfl⟩ := hp
          exact ⟨htnd.2, fun d hd => htsub d (by simp [hd])⟩
        · intro d hd
          have h' := h.fresh d (htl d hd)
          have hdc : d ≠ c := by rintro rfl; exact h'.2.2 hcc
          simp only [upd_other _ _ hdc]
          exact h'
        · intro d hd
          rw [hsince d (h.reg d hd) rfl]
          have h1 := h.deliver d hd
          show _ ++ _ ++ (if d ∈ todo then [m] else []) = _
          by_cases hdc : d = c
          · subst hdc
            rw [hpc'] at h1
            simp only [upd_same]
            rw [if_neg htnd.1, List.append_nil, ← h1, List.append_assoc]
          · simp only [upd_other _ _ hdc]
            rw [hpend d hdc]; exact h1
        · intro d
          by_cases hdc : d = c
          · subst hdc; simp only [upd_same, List.length_append, List.length_cons, List.length_nil]; omega
          · simp only [upd_other _ _ hdc]; exact h.len d
      · simp only [Except.ok.injEq] at hs
        subst hs
        have hmem : ∀ d, d ∈ s.conns.erase c ↔ d ≠ c ∧ d ∈ s.conns := fun d => h.nodup.mem_erase_iff
        refine ⟨h.nodup.erase c, ?_, ?_, ?_, fun d hd => hreg d (h.reg d ((hmem d).mp hd).2), ?_, ?_⟩
        · intro d hd
          have := (hmem d).mp hd
          simp only [upd_other _ _ this.1]; exact h.isOpen d this.2
        · intro m' t hp
          simp only [Pc.sending.injEq] at hp
          obtain ⟨rfl, rfl⟩ := hp
          refine ⟨htnd.2, fun d hd => (hmem d).mpr ⟨?_, htsub d (by simp [hd])⟩⟩
          rintro rfl; exact htnd.1 hd
        · intro d hd
          have h' := h.fresh d (htl d hd)
          have hdc : d ≠ c := by rintro rfl; exact h'.2.2 hcc
          simp only [upd_other _ _ hdc]
          exact ⟨h'.1, h'.2.1, fun hm => h'.2.2 ((hmem d).mp hm).2⟩
        · intro d hd
          have hd' := (hmem d).mp hd
          rw [hsince d (h.reg d hd'.2) rfl]
          have h1 := h.deliver d hd'.2
          show _ ++ _ ++ (if d ∈ todo then [m] else []) = _
          simp only [upd_other _ _ hd'.1]
          rw [hpend d hd'.1]; exact h1
        · intro d
          by_cases hdc : d = c
          · subst hdc; simp only [upd_same]; exact h.len d
          · simp only [upd_other _ _ hdc]; exact h.len d

theorem inv_exec {es : List (Event Msg)} (hf : fresh es) {s : State Msg} (h : exec init es = some (.ok s)) :
    Inv es s := by
  induction es using List.reverseRecOn generalizing s with
  | nil => simp only [exec, Option.some.injEq, Except.ok.injEq] at h; subst h; exact inv_init
  | append_singleton es e ih =>
    obtain ⟨s1, h1, h2⟩ := exec_snoc_ok h
    exact inv_step hf (ih (fresh_prefix hf) h1) h2

end Argo.Hub
