import Verif.Hub.Props2

set_option autoImplicit false

/-! # C66: a client is served as if it were alone -/

namespace Argo.Hub

open Argo Argo.Hub.Spec

variable {Msg : Type} [DecidableEq Msg]

/-- The part of one event that concerns `c`: requests and reads of other connections disappear, visits
of other connections disappear, and a broadcast goes round `c` only. -/
def only (c : Id) (s : State Msg) : Event Msg → List (Event Msg)
  | .register d => if d = c then [.register d] else []
  | .unregister d => if d = c then [.unregister d] else []
  | .broadcast m order => [.broadcast m (order.filter (· = c))]
  | .read d => if d = c then [.read d] else []
  | .hub => match s.pc with
    | .sending _ (d :: _) => if d = c then [.hub] else []
    | _ => [.hub]

/-- The schedule without the other connections. -/
def alone (c : Id) (s : State Msg) : List (Event Msg) → List (Event Msg)
  | [] => []
  | e :: es => only c s e ++ match step s e with
    | some (.ok s') => alone c s' es
    | _ => []

def restrictPc (c : Id) : Pc Msg → Pc Msg
  | .idle => .idle
  | .sending m todo => .sending m (todo.filter (· = c))

/-- `t` is what `s` looks like to `c`. -/
structure Sim (c : Id) (s t : State Msg) : Prop where
  conns : t.conns = s.conns.filter (· = c)
  chan : t.chan c = s.chan c
  got : t.got c = s.got c
  saw : t.saw c = s.saw c
  pc : t.pc = restrictPc c s.pc

theorem filter_erase_self {c : Id} {l : List Id} (h : l.Nodup) :
    (l.erase c).filter (· = c) = (l.filter (· = c)).erase c := by
  have h1 : (l.erase c).filter (· = c) = [] := by
    rw [List.filter_eq_nil_iff]
    intro a ha
    have := (h.mem_erase_iff).mp ha
    simpa using this.1
  have h2 : (l.filter (· = c)).erase c = [] := by
    have hnd : (l.filter (fun a => decide (a = c))).Nodup := h.filter _
    rw [List.eq_nil_iff_forall_not_mem]
    intro a ha
    have := (hnd.mem_erase_iff).mp ha
    have h3 : a = c := by simpa using (List.mem_filter.mp this.2).2
    exact this.1 h3
  rw [h1, h2]

theorem filter_erase_other {c d : Id} {l : List Id} (hd : d ≠ c) :
    (l.erase d).filter (· = c) = l.filter (· = c) := by
  induction l with
  | nil => rfl
  | cons a l ih =>
    rw [List.erase_cons]
    by_cases ha : a = d
    · subst ha
      simp [hd]
    · have : (a == d) = false := by simpa using ha
      rw [this]
      simp only [Bool.false_eq_true, if_false, List.filter_cons, ih]

theorem filter_insert {c : Id} {l : List Id} :
    (insertId l c).filter (· = c) = insertId (l.filter (· = c)) c := by
  unfold insertId
  by_cases h : c ∈ l
  · rw [if_pos h, if_pos (by simp [h])]
  · rw [if_neg h, if_neg (by simp [h]), List.filter_append]; simp

theorem filter_insert_other {c d : Id} {l : List Id} (hd : d ≠ c) :
    (insertId l d).filter (· = c) = l.filter (· = c) := by
  unfold insertId
  split
  · rfl
  · rw [List.filter_append]; simp [hd]

theorem restrict_idle {c : Id} {p : Pc Msg} : restrictPc c p = .idle ↔ p = .idle := by
  cases p <;> simp [restrictPc]

theorem sim_step {c : Id} {s s' t : State Msg} {e : Event Msg} {es : List (Event Msg)} (hinv : Inv es s) (h : Sim c s t)
    (hs : step s e = some (.ok s')) : ∃ t', exec t (only c s e) = some (.ok t') ∧ Sim c s' t' := by
  obtain ⟨q1, q2, q3, q4, q5⟩ := h
  cases e with
  | register d =>
    simp only [step] at hs
    split at hs
    · rename_i hpc
      simp only [Option.some.injEq, Except.ok.injEq] at hs
      subst hs
      by_cases hd : d = c
      · subst hd
        refine ⟨{ t with conns := insertId t.conns d }, ?_, ⟨?_, q2, q3, q4, q5⟩⟩
        · simp only [only, if_true, exec, step]
          rw [if_pos (by rw [q5, hpc]; rfl)]
        · simp only [q1, filter_insert]
      · refine ⟨t, by simp [only, hd, exec], ⟨?_, q2, q3, q4, q5⟩⟩
        simp only [filter_insert_other hd, q1]
    · cases hs
  | unregister d =>
    simp only [step] at hs
    split at hs
    · rename_i hpc
      split at hs
      · cases hs
      · rename_i hcl
        simp only [Option.some.injEq, Except.ok.injEq] at hs
        subst hs
        by_cases hd : d = c
        · subst hd
          refine ⟨{ t with conns := t.conns.erase d, chan := upd t.chan d ⟨(t.chan d).buf, true⟩ }, ?_,
            ⟨?_, ?_, q3, q4, q5⟩⟩
          · simp only [only, if_true, exec, step]
            rw [if_pos (by rw [q5, hpc]; rfl), q2, if_neg hcl]
          · simp only [q1, filter_erase_self hinv.nodup]
          · simp only [upd_same, q2]
        · refine ⟨t, by simp [only, hd, exec], ⟨?_, ?_, q3, q4, q5⟩⟩
          · simp only [filter_erase_other hd, q1]
          · simp only [upd_other _ _ (Ne.symm hd), q2]
    · cases hs
  | broadcast m order =>
    simp only [step] at hs
    split at hs
    · rename_i hpc
      simp only [Option.some.injEq, Except.ok.injEq] at hs
      subst hs
      refine ⟨{ t with pc := .sending m (order.filter (· = c)) }, ?_, ⟨q1, q2, q3, q4, rfl⟩⟩
      simp only [only, exec, step]
      rw [if_pos]
      exact ⟨by rw [q5, hpc.1]; rfl, by rw [q1]; exact hpc.2.filter _⟩
    · cases hs
  | read d =>
    simp only [step] at hs
    by_cases hd : d = c
    · subst hd
      simp only [only, if_true, exec, step, q2]
      split at hs
      · rename_i m rest hbuf
        simp only [Option.some.injEq, Except.ok.injEq] at hs
        subst hs
        refine ⟨{ t with chan := upd t.chan d ⟨rest, (s.chan d).closed⟩, got := upd t.got d (t.got d ++ [m]) },
          ?_, ⟨q1, ?_, ?_, q4, q5⟩⟩
        · simp only
        · simp only [upd_same]
        · simp only [upd_same, q3]
      · rename_i hbuf
        split at hs
        · rename_i hcl
          simp only [Option.some.injEq, Except.ok.injEq] at hs
          subst hs
          refine ⟨{ t with saw := upd t.saw d true }, ?_, ⟨q1, q2, q3, ?_, q5⟩⟩
          · simp only [hcl, if_true]
          · simp only [upd_same]
        · cases hs
    · refine ⟨t, by simp [only, hd, exec], ?_⟩
      have hcd := Ne.symm hd
      split at hs
      · simp only [Option.some.injEq, Except.ok.injEq] at hs
        subst hs
        exact ⟨q1, by simp only [upd_other _ _ hcd, q2], by simp only [upd_other _ _ hcd, q3], q4, q5⟩
      · split at hs
        · simp only [Option.some.injEq, Except.ok.injEq] at hs
          subst hs
          exact ⟨q1, q2, q3, by simp only [upd_other _ _ hcd, q4], q5⟩
        · cases hs
  | hub =>
    simp only [step] at hs
    split at hs
    · cases hs
    · rename_i m hpc
      simp only [Option.some.injEq, Except.ok.injEq] at hs
      subst hs
      have htpc : t.pc = .sending m [] := by rw [q5, hpc]; rfl
      refine ⟨{ t with pc := .idle }, ?_, ⟨q1, q2, q3, q4, rfl⟩⟩
      simp only [only, hpc, exec, step, htpc]
    · rename_i m d todo hpc
      simp only [Option.some.injEq] at hs
      have htnd := (hinv.todo m _ hpc).1
      rw [List.nodup_cons] at htnd
      by_cases hd : d = c
      · subst hd
        have htpc : t.pc = .sending m (d :: todo.filter (· = d)) := by rw [q5, hpc]; simp [restrictPc]
        simp only [only, hpc, if_true, exec, step, htpc]
        unfold visit at hs ⊢
        rw [q2]
        split at hs
        · cases hs
        · rename_i hcl
          rw [if_neg hcl]
          split at hs
          · rename_i hlt
            simp only [Except.ok.injEq] at hs
            subst hs
            refine ⟨⟨t.conns, upd t.chan d ⟨(s.chan d).buf ++ [m], false⟩, t.got, t.saw,
              .sending m (todo.filter (· = d))⟩, ?_, ⟨q1, ?_, q3, q4, rfl⟩⟩
            · rw [if_pos hlt]
            · simp only [upd_same]
          · rename_i hlt
            simp only [Except.ok.injEq] at hs
            subst hs
            refine ⟨⟨t.conns.erase d, upd t.chan d ⟨(s.chan d).buf, true⟩, t.got, t.saw,
              .sending m (todo.filter (· = d))⟩, ?_, ⟨?_, ?_, q3, q4, rfl⟩⟩
            · rw [if_neg hlt]
            · simp only [q1, filter_erase_self hinv.nodup]
            · simp only [upd_same]
      · have hcd := Ne.symm hd
        have htpc : t.pc = .sending m (todo.filter (· = c)) := by rw [q5, hpc]; simp [restrictPc, hd]
        refine ⟨t, by simp [only, hpc, hd, exec], ?_⟩
        unfold visit at hs
        split at hs
        · cases hs
        · split at hs
          · simp only [Except.ok.injEq] at hs
            subst hs
            exact ⟨q1, by simp only [upd_other _ _ hcd, q2], q3, q4, htpc⟩
          · simp only [Except.ok.injEq] at hs
            subst hs
            exact ⟨by simp only [filter_erase_other hd, q1], by simp only [upd_other _ _ hcd, q2], q3, q4, htpc⟩

theorem sim_exec {c : Id} {pre es : List (Event Msg)} (hf : fresh (pre ++ es)) {s s' t : State Msg}
    (hpre : exec init pre = some (.ok s)) (h : Sim c s t) (hs : exec s es = some (.ok s')) :
    ∃ t', exec t (alone c s es) = some (.ok t') ∧ Sim c s' t' := by
  induction es generalizing pre s t with
  | nil =>
    simp only [exec, Option.some.injEq, Except.ok.injEq] at hs
    subst hs
    exact ⟨t, rfl, h⟩
  | cons e es ih =>
    have hinv := inv_exec (fresh_prefix hf) hpre
    simp only [exec] at hs
    cases he : step s e with
    | none => rw [he] at hs; cases hs
    | some r =>
      rw [he] at hs
      cases r with
      | error _ => cases hs
      | ok s1 =>
        simp only at hs
        obtain ⟨t1, ht1, h1⟩ := sim_step hinv h he
        have hpre1 : exec init (pre ++ [e]) = some (.ok s1) := by
          rw [exec_append hpre]; simp only [exec, he]
        obtain ⟨t', ht', h2⟩ := ih (pre := pre ++ [e]) (by simpa using hf) hpre1 h1 hs
        refine ⟨t', ?_, h2⟩
        simp only [alone, he]
        rw [exec_append ht1]
        exact ht'

/-- A client's experience does not depend on the others: removing from a schedule everything that
concerns other connections gives a schedule that can happen, in which the client is in the same
situation, has received the same messages and has the same messages pending. -/
theorem C66_alone {es : List (Event Msg)} (hf : fresh es) {s : State Msg} (h : exec init es = some (.ok s)) (c : Id) :
    ∃ t, exec init (alone c init es) = some (.ok t) ∧ t.got c = s.got c ∧ t.chan c = s.chan c ∧
      t.saw c = s.saw c ∧ (c ∈ t.conns ↔ c ∈ s.conns) := by
  obtain ⟨t, h1, h2⟩ := sim_exec (pre := []) (c := c) (t := init) hf rfl ⟨rfl, rfl, rfl, rfl, rfl⟩ h
  refine ⟨t, h1, h2.got, h2.chan, h2.saw, ?_⟩
  rw [h2.conns]; simp

/-- Two schedules that agree on what concerns `c` treat `c` alike, whoever else is connected and however
fast the others read. -/
theorem C66_isolation {es es' : List (Event Msg)} (hf : fresh es) (hf' : fresh es') {s s' : State Msg}
    (h : exec init es = some (.ok s)) (h' : exec init es' = some (.ok s')) {c : Id}
    (he : alone c init es = alone c init es') :
    s.got c = s'.got c ∧ s.chan c = s'.chan c ∧ s.saw c = s'.saw c ∧ (c ∈ s.conns ↔ c ∈ s'.conns) := by
  obtain ⟨t, h1, h2, h3, h4, h5⟩ := C66_alone hf h c
  obtain ⟨t', k1, k2, k3, k4, k5⟩ := C66_alone hf' h' c
  rw [he, k1] at h1
  simp only [Option.some.injEq, Except.ok.injEq] at h1
  subst h1
  exact ⟨by rw [← h2, k2], by rw [← h3, k3], by rw [← h4, k4], by rw [← h5, k5]⟩

/-- A schedule with a fast client 1 and a client 2 that never reads, and what concerns client 1. -/
def twoClients : List (Event Nat) :=
  [.register 1, .register 2, .broadcast 10 [2, 1], .hub, .hub, .read 1, .hub, .broadcast 11 [1, 2], .hub,
    .read 1, .hub, .hub]

example : alone 1 init twoClients =
    [.register 1, .broadcast 10 [1], .hub, .read 1, .hub, .broadcast 11 [1], .hub, .read 1, .hub] := by decide

example : (match exec init twoClients with
    | some (.ok s) => some (s.got 1, (s.chan 2).buf, since 1 twoClients, s.conns)
    | _ => none) = some ([10, 11], [10, 11], [10, 11], [1, 2]) := by decide

example : fresh twoClients ∧ noUnregister twoClients := by
  refine ⟨?_, by intro c; simp [twoClients]⟩
  intro a b c h
  rcases a with _ | ⟨x, a⟩
  · simp [touched]
  · rcases a with _ | ⟨y, a⟩
    · simp only [twoClients, List.cons_append, List.nil_append, List.cons.injEq, Event.register.injEq] at h
      obtain ⟨rfl, rfl, _⟩ := h
      decide
    · exfalso
      simp only [twoClients, List.cons_append, List.cons.injEq] at h
      have : Event.register c ∈ a ++ .register c :: b := by simp
      rw [← h.2.2] at this
      simp at this

end Argo.Hub
