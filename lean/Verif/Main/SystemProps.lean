import Verif.Main.System
import Verif.Main.Props
import Verif.Hub.Isolation

set_option autoImplicit false

/-! # C69 (pipeline) and C82 (from interfaces to clients) -/

namespace Argo.Main

open Argo

variable {δ β : Type} [DecidableEq β] {P : Program δ β}

/-! ## Specification: functions of the schedule -/

/-- The messages interface `i` read, in order. -/
def readBy (i : Nat) : List (SysEvent δ β) → List (Message δ)
  | [] => []
  | .read j (some m) :: es => if j = i then m :: readBy i es else readBy i es
  | _ :: es => readBy i es

/-- What the WebSocket hub went through. -/
def wsTrace : List (SysEvent δ β) → List (Hub.Event β)
  | [] => []
  | .delta b order :: es => .broadcast b order :: wsTrace es
  | .ws e :: es => e :: wsTrace es
  | _ :: es => wsTrace es

/-- What the statistics hub went through. -/
def stTrace : List (SysEvent δ β) → List (Hub.Event Counters)
  | [] => []
  | .statistics c order :: es => .broadcast c order :: stTrace es
  | .st e :: es => e :: stTrace es
  | _ :: es => stTrace es

/-- The messages the consumer took from interface `i`. -/
def takenFrom (i : Nat) (l : List (Nat × Message δ)) : List (Message δ) :=
  (l.filter (fun e => e.1 = i)).map Prod.snd

/-! ## Traces -/

theorem readBy_append (i : Nat) (a b : List (SysEvent δ β)) : readBy i (a ++ b) = readBy i a ++ readBy i b := by
  induction a with
  | nil => rfl
  | cons e a ih =>
    cases e with
    | read j r =>
      cases r with
      | none => exact ih
      | some m =>
        simp only [List.cons_append, readBy, ih]
        split <;> rfl
    | _ => exact ih

theorem wsTrace_append (a b : List (SysEvent δ β)) : wsTrace (a ++ b) = wsTrace a ++ wsTrace b := by
  induction a with
  | nil => rfl
  | cons e a ih =>
    cases e with
    | delta b order => simp [wsTrace, ih]
    | ws e => simp [wsTrace, ih]
    | _ => exact ih

theorem stTrace_append (a b : List (SysEvent δ β)) : stTrace (a ++ b) = stTrace a ++ stTrace b := by
  induction a with
  | nil => rfl
  | cons e a ih =>
    cases e with
    | statistics b order => simp [stTrace, ih]
    | st e => simp [stTrace, ih]
    | _ => exact ih

theorem sysExec_snoc_ok {s s' : Sys δ β} {es : List (SysEvent δ β)} {e : SysEvent δ β}
    (h : sysExec P s (es ++ [e]) = some (.ok s')) :
    ∃ s1, sysExec P s es = some (.ok s1) ∧ sysStep P s1 e = some (.ok s') := by
  induction es generalizing s with
  | nil =>
    refine ⟨s, rfl, ?_⟩
    simp only [List.nil_append, sysExec] at h
    cases h1 : sysStep P s e with
    | none => rw [h1] at h; cases h
    | some r =>
      rw [h1] at h
      cases r with
      | error p => cases h
      | ok s2 => simpa [sysExec] using h
  | cons x es ih =>
    simp only [List.cons_append, sysExec] at h ⊢
    cases h1 : sysStep P s x with
    | none => rw [h1] at h; cases h
    | some r =>
      rw [h1] at h
      cases r with
      | error p => cases h
      | ok s2 => exact ih h

theorem consume_snoc {o : Opts} {out : Outputs} {sort : List String → List String}
    {print : Message δ → GoM Unit} {delta : Message δ → GoM (Option β)} {s s1 s2 : Stats}
    {ms : List (Message δ)} {m : Message δ} {e1 e2 : List (Effect β)}
    (h1 : consume sort o out print delta s ms = .ok (s1, e1))
    (h2 : iteration sort o out print delta s1 m = .ok (s2, e2)) :
    consume sort o out print delta s (ms ++ [m]) = .ok (s2, e1 ++ e2) := by
  induction ms generalizing s e1 with
  | nil =>
    simp only [consume, pure, Except.pure, Except.ok.injEq, Prod.mk.injEq] at h1
    obtain ⟨rfl, rfl⟩ := h1
    simp only [List.nil_append, consume, h2, bind, Except.bind, pure, Except.pure]
    simp
  | cons x ms ih =>
    obtain ⟨sa, ea, eb, k1, k2, rfl⟩ := consume_cons h1
    have := ih k2
    simp only [List.cons_append, consume, k1, bind, Except.bind, this, pure, Except.pure]
    simp

/-- What holds in every reachable state. -/
structure SysInv (P : Program δ β) (es : List (SysEvent δ β)) (s : Sys δ β) : Prop where
  order : ∀ i, takenFrom i s.consumed ++ (s.pending i).toList = readBy i es
  effects : consume P.sort P.opts P.out P.print P.delta Stats.empty (s.consumed.map Prod.snd) =
    .ok (s.stats, s.emitted ++ s.todo)
  ws : Hub.exec Hub.init (wsTrace es) = some (.ok s.ws)
  st : Hub.exec Hub.init (stTrace es) = some (.ok s.st)
  deltas : Hub.Spec.broadcasts (wsTrace es) = s.emitted.filterMap Effect.delta?
  counters : Hub.Spec.broadcasts (stTrace es) = s.emitted.filterMap Effect.counters?

theorem takenFrom_append (i : Nat) (a b : List (Nat × Message δ)) :
    takenFrom i (a ++ b) = takenFrom i a ++ takenFrom i b := by simp [takenFrom]

omit [DecidableEq β] in
theorem broadcasts_own {γ : Type} {e : Hub.Event γ} (h : own e = true) : Hub.Spec.broadcasts [e] = [] := by
  cases e <;> simp_all [own, Hub.Spec.broadcasts]

theorem hub_snoc {γ : Type} [DecidableEq γ] {t : List (Hub.Event γ)} {a b : Hub.State γ} {e : Hub.Event γ}
    (h1 : Hub.exec Hub.init t = some (.ok a)) (h2 : Hub.step a e = some (.ok b)) :
    Hub.exec Hub.init (t ++ [e]) = some (.ok b) := by
  rw [Hub.exec_append h1]; simp only [Hub.exec, h2]

theorem sysInv_step {es : List (SysEvent δ β)} {s s' : Sys δ β} {e : SysEvent δ β} (h : SysInv P es s)
    (hs : sysStep P s e = some (.ok s')) : SysInv P (es ++ [e]) s' := by
  obtain ⟨q1, q2, q3, q4, q5, q6⟩ := h
  cases e with
  | read i r =>
    simp only [sysStep] at hs
    split at hs
    · cases hs
    · rename_i hp
      simp only [Option.some.injEq, Except.ok.injEq] at hs
      subst hs
      refine ⟨?_, q2, by simpa [wsTrace_append, wsTrace] using q3, by simpa [stTrace_append, stTrace] using q4,
        by simpa [wsTrace_append, wsTrace] using q5, by simpa [stTrace_append, stTrace] using q6⟩
      intro j
      rw [readBy_append, ← q1 j]
      by_cases hj : j = i
      · subst hj
        rw [hp]
        cases r <;> simp [setPending, readBy]
      · cases r <;> simp [setPending, readBy, hj, Ne.symm hj]
  | take i =>
    simp only [sysStep] at hs
    split at hs
    · rename_i m hp ht
      split at hs
      · cases hs
      · rename_i stats effects hit
        simp only [Option.some.injEq, Except.ok.injEq] at hs
        subst hs
        refine ⟨?_, ?_, by simpa [wsTrace_append, wsTrace] using q3,
          by simpa [stTrace_append, stTrace] using q4, by simpa [wsTrace_append, wsTrace] using q5,
          by simpa [stTrace_append, stTrace] using q6⟩
        · intro j
          rw [readBy_append, ← q1 j, takenFrom_append]
          by_cases hj : j = i
          · subst hj
            simp [setPending, readBy, hp, takenFrom]
          · simp [setPending, readBy, hj, Ne.symm hj, takenFrom]
        · rw [ht, List.append_nil] at q2
          rw [List.map_append]
          exact consume_snoc q2 hit
    · cases hs
  | act =>
    simp only [sysStep] at hs
    split at hs
    case h_4 => cases hs
    all_goals
      rename_i x rest ht
      simp only [Option.some.injEq, Except.ok.injEq] at hs
      subst hs
      refine ⟨by simpa [readBy_append, readBy] using q1, ?_, by simpa [wsTrace_append, wsTrace] using q3,
        by simpa [stTrace_append, stTrace] using q4,
        by simpa [wsTrace_append, wsTrace, Effect.delta?, List.filterMap_cons] using q5,
        by simpa [stTrace_append, stTrace, Effect.counters?, List.filterMap_cons] using q6⟩
      rw [q2, ht]; simp
  | statistics c order =>
    simp only [sysStep] at hs
    split at hs
    · rename_i c' rest ht
      split at hs
      · rename_i hc
        subst hc
        split at hs
        · rename_i st hst
          simp only [Option.some.injEq, Except.ok.injEq] at hs
          subst hs
          refine ⟨by simpa [readBy_append, readBy] using q1, ?_, by simpa [wsTrace_append, wsTrace] using q3,
            ?_, by simpa [wsTrace_append, wsTrace, Effect.delta?, List.filterMap_cons] using q5, ?_⟩
          · rw [q2, ht]; simp
          · rw [stTrace_append]; exact hub_snoc q4 hst
          · rw [stTrace_append, Hub.broadcasts_append, q6]
            simp [stTrace, Hub.Spec.broadcasts, Effect.counters?]
        · cases hs
        · cases hs
      · cases hs
    · cases hs
  | delta b order =>
    simp only [sysStep] at hs
    split at hs
    · rename_i c' rest ht
      split at hs
      · rename_i hc
        subst hc
        split at hs
        · rename_i st hst
          simp only [Option.some.injEq, Except.ok.injEq] at hs
          subst hs
          refine ⟨by simpa [readBy_append, readBy] using q1, ?_, ?_,
            by simpa [stTrace_append, stTrace] using q4, ?_,
            by simpa [stTrace_append, stTrace, Effect.counters?, List.filterMap_cons] using q6⟩
          · rw [q2, ht]; simp
          · rw [wsTrace_append]; exact hub_snoc q3 hst
          · rw [wsTrace_append, Hub.broadcasts_append, q5]
            simp [wsTrace, Hub.Spec.broadcasts, Effect.delta?]
        · cases hs
        · cases hs
      · cases hs
    · cases hs
  | ws e =>
    simp only [sysStep] at hs
    split at hs
    · rename_i ho
      split at hs
      · rename_i w hw
        simp only [Option.some.injEq, Except.ok.injEq] at hs
        subst hs
        refine ⟨by simpa [readBy_append, readBy] using q1, q2, ?_, by simpa [stTrace_append, stTrace] using q4,
          ?_, by simpa [stTrace_append, stTrace] using q6⟩
        · rw [wsTrace_append]; exact hub_snoc q3 hw
        · rw [wsTrace_append, Hub.broadcasts_append, q5]
          simp [wsTrace, broadcasts_own ho]
      · cases hs
      · cases hs
    · cases hs
  | st e =>
    simp only [sysStep] at hs
    split at hs
    · rename_i ho
      split at hs
      · rename_i w hw
        simp only [Option.some.injEq, Except.ok.injEq] at hs
        subst hs
        refine ⟨by simpa [readBy_append, readBy] using q1, q2, by simpa [wsTrace_append, wsTrace] using q3, ?_,
          by simpa [wsTrace_append, wsTrace] using q5, ?_⟩
        · rw [stTrace_append]; exact hub_snoc q4 hw
        · rw [stTrace_append, Hub.broadcasts_append, q6]
          simp [stTrace, broadcasts_own ho]
      · cases hs
      · cases hs
    · cases hs

theorem sysInv_exec {es : List (SysEvent δ β)} {s : Sys δ β} (h : sysExec P Sys.init es = some (.ok s)) :
    SysInv P es s := by
  induction es using List.reverseRecOn generalizing s with
  | nil =>
    simp only [sysExec, Option.some.injEq, Except.ok.injEq] at h
    subst h
    exact ⟨fun i => rfl, rfl, rfl, rfl, rfl, rfl⟩
  | append_singleton es e ih =>
    obtain ⟨s1, h1, h2⟩ := sysExec_snoc_ok h
    exact sysInv_step (ih h1) h2

/-! ## C69 -/

/-- C69: at every moment of every schedule, the messages the consumer has taken from an interface,
followed by the one the interface is handing over, are exactly the messages the interface has read, in
order: none lost, none duplicated, whatever the other interfaces do. -/
theorem C69_order {es : List (SysEvent δ β)} {s : Sys δ β} (h : sysExec P Sys.init es = some (.ok s))
    (i : Nat) : takenFrom i s.consumed ++ (s.pending i).toList = readBy i es :=
  (sysInv_exec h).order i

/-- The steps that need nobody outside: no new input and no action of a client. -/
def Internal : SysEvent δ β → Prop
  | .take _ => True
  | .act => True
  | .statistics _ _ => True
  | .delta _ _ => True
  | .ws e => e = .hub
  | .st e => e = .hub
  | .read _ _ => False

/-- New clients only, and nobody asks to unregister (nobody in argo does). -/
structure Ordinary (es : List (SysEvent δ β)) : Prop where
  wsFresh : Hub.Spec.fresh (wsTrace es)
  stFresh : Hub.Spec.fresh (stTrace es)
  wsNo : Hub.Spec.noUnregister (wsTrace es)
  stNo : Hub.Spec.noUnregister (stTrace es)

theorem sysExec_append {s s1 : Sys δ β} {a b : List (SysEvent δ β)} (h : sysExec P s a = some (.ok s1)) :
    sysExec P s (a ++ b) = sysExec P s1 b := by
  induction a generalizing s with
  | nil => simp only [sysExec, Option.some.injEq, Except.ok.injEq] at h; rw [h]; rfl
  | cons x a ih =>
    simp only [List.cons_append, sysExec] at h ⊢
    cases h1 : sysStep P s x with
    | none => rw [h1] at h; cases h
    | some r =>
      rw [h1] at h
      cases r with
      | error p => cases h
      | ok s2 => exact ih h

theorem fresh_append_quiet {γ : Type} {a b : List (Hub.Event γ)} (h : Hub.Spec.fresh a)
    (hb : ∀ c, Hub.Event.register c ∉ b) : Hub.Spec.fresh (a ++ b) := by
  intro x y c he
  rcases List.append_eq_append_iff.mp he with ⟨as, rfl, h2⟩ | ⟨bs, rfl, h2⟩
  · exfalso
    apply hb c
    rw [h2]; simp
  · cases bs with
    | nil => exact absurd (by simp at h2; rw [← h2]; simp) (hb c)
    | cons z bs =>
      simp only [List.cons_append, List.cons.injEq] at h2
      obtain ⟨rfl, _⟩ := h2
      exact h x bs c rfl

theorem Ordinary.append {a b : List (SysEvent δ β)} (h : Ordinary a) (hb : ∀ e ∈ b, Internal e) :
    Ordinary (a ++ b) := by
  have w : ∀ e ∈ wsTrace b, e = .hub ∨ ∃ m o, e = .broadcast m o := by
    clear h
    induction b with
    | nil => simp [wsTrace]
    | cons x b ih =>
      have ih' := ih (fun e he => hb e (by simp [he]))
      have hx := hb x (by simp)
      cases x with
      | delta m o =>
        intro e he
        rcases List.mem_cons.mp he with rfl | he
        · exact Or.inr ⟨m, o, rfl⟩
        · exact ih' e he
      | ws e' =>
        intro e he
        rcases List.mem_cons.mp he with rfl | he
        · exact Or.inl hx
        · exact ih' e he
      | _ => exact ih'
  have t : ∀ e ∈ stTrace b, e = .hub ∨ ∃ m o, e = .broadcast m o := by
    clear h w
    induction b with
    | nil => simp [stTrace]
    | cons x b ih =>
      have ih' := ih (fun e he => hb e (by simp [he]))
      have hx := hb x (by simp)
      cases x with
      | statistics m o =>
        intro e he
        rcases List.mem_cons.mp he with rfl | he
        · exact Or.inr ⟨m, o, rfl⟩
        · exact ih' e he
      | st e' =>
        intro e he
        rcases List.mem_cons.mp he with rfl | he
        · exact Or.inl hx
        · exact ih' e he
      | _ => exact ih'
  refine ⟨?_, ?_, ?_, ?_⟩
  · rw [wsTrace_append]
    exact fresh_append_quiet h.wsFresh (fun c hc => by rcases w _ hc with h | ⟨_, _, h⟩ <;> cases h)
  · rw [stTrace_append]
    exact fresh_append_quiet h.stFresh (fun c hc => by rcases t _ hc with h | ⟨_, _, h⟩ <;> cases h)
  · rw [wsTrace_append]
    intro c hc
    rcases List.mem_append.mp hc with hc | hc
    · exact h.wsNo c hc
    · rcases w _ hc with h | ⟨_, _, h⟩ <;> cases h
  · rw [stTrace_append]
    intro c hc
    rcases List.mem_append.mp hc with hc | hc
    · exact h.stNo c hc
    · rcases t _ hc with h | ⟨_, _, h⟩ <;> cases h

/-- The WebSocket hub finishes its loop by itself. -/
theorem ws_idle {es : List (SysEvent δ β)} {s : Sys δ β} (ho : Ordinary es)
    (h : sysExec P Sys.init es = some (.ok s)) :
    ∃ es' w, (∀ e ∈ es', Internal e) ∧ sysExec P s es' = some (.ok { s with ws := w }) ∧ w.pc = .idle := by
  cases hpc : s.ws.pc with
  | idle => exact ⟨[], s.ws, by simp, rfl, hpc⟩
  | sending m todo =>
    induction todo generalizing es s with
    | nil =>
      obtain ⟨w, h1, h2⟩ := Hub.C64_hub_never_waits ho.wsFresh (sysInv_exec h).ws hpc
      refine ⟨[.ws .hub], w, by simp [Internal], ?_, h2⟩
      simp only [sysExec, sysStep, own, if_true, h1]
    | cons c todo ih =>
      obtain ⟨w, h1, h2⟩ := Hub.C64_hub_never_waits ho.wsFresh (sysInv_exec h).ws hpc
      have hstep : sysExec P s [.ws .hub] = some (.ok { s with ws := w }) := by
        simp only [sysExec, sysStep, own, if_true, h1]
      have h' : sysExec P Sys.init (es ++ [.ws .hub]) = some (.ok { s with ws := w }) := by
        rw [sysExec_append h, hstep]
      obtain ⟨es', w', k1, k2, k3⟩ := ih (ho.append (by simp [Internal])) h' h2
      refine ⟨.ws .hub :: es', w', ?_, ?_, k3⟩
      · intro e he
        rcases List.mem_cons.mp he with rfl | he
        · rfl
        · exact k1 e he
      · have := sysExec_append (b := es') hstep
        rw [List.singleton_append] at this
        rw [this, k2]

/-- The statistics hub finishes its loop by itself. -/
theorem st_idle {es : List (SysEvent δ β)} {s : Sys δ β} (ho : Ordinary es)
    (h : sysExec P Sys.init es = some (.ok s)) :
    ∃ es' w, (∀ e ∈ es', Internal e) ∧ sysExec P s es' = some (.ok { s with st := w }) ∧ w.pc = .idle := by
  cases hpc : s.st.pc with
  | idle => exact ⟨[], s.st, by simp, rfl, hpc⟩
  | sending m todo =>
    induction todo generalizing es s with
    | nil =>
      obtain ⟨w, h1, h2⟩ := Hub.C64_hub_never_waits ho.stFresh (sysInv_exec h).st hpc
      refine ⟨[.st .hub], w, by simp [Internal], ?_, h2⟩
      simp only [sysExec, sysStep, own, if_true, h1]
    | cons c todo ih =>
      obtain ⟨w, h1, h2⟩ := Hub.C64_hub_never_waits ho.stFresh (sysInv_exec h).st hpc
      have hstep : sysExec P s [.st .hub] = some (.ok { s with st := w }) := by
        simp only [sysExec, sysStep, own, if_true, h1]
      have h' : sysExec P Sys.init (es ++ [.st .hub]) = some (.ok { s with st := w }) := by
        rw [sysExec_append h, hstep]
      obtain ⟨es', w', k1, k2, k3⟩ := ih (ho.append (by simp [Internal])) h' h2
      refine ⟨.st .hub :: es', w', ?_, ?_, k3⟩
      · intro e he
        rcases List.mem_cons.mp he with rfl | he
        · rfl
        · exact k1 e he
      · have := sysExec_append (b := es') hstep
        rw [List.singleton_append] at this
        rw [this, k2]

/-- One effect can always be performed without outside help. -/
theorem one_effect {es : List (SysEvent δ β)} {s : Sys δ β} (ho : Ordinary es)
    (h : sysExec P Sys.init es = some (.ok s)) {x : Effect β} {rest : List (Effect β)} (ht : s.todo = x :: rest) :
    ∃ es' s', (∀ e ∈ es', Internal e) ∧ sysExec P s es' = some (.ok s') ∧ s'.todo = rest ∧
      s'.pending = s.pending ∧ s'.consumed = s.consumed := by
  cases x with
  | logged v => exact ⟨[.act], { s with todo := rest, emitted := s.emitted ++ [.logged v] }, by simp [Internal], by simp only [sysExec, sysStep, ht], rfl, rfl, rfl⟩
  | screen v => exact ⟨[.act], { s with todo := rest, emitted := s.emitted ++ [.screen v] }, by simp [Internal], by simp only [sysExec, sysStep, ht], rfl, rfl, rfl⟩
  | publish v => exact ⟨[.act], { s with todo := rest, emitted := s.emitted ++ [.publish v] }, by simp [Internal], by simp only [sysExec, sysStep, ht], rfl, rfl, rfl⟩
  | statistics c =>
    obtain ⟨es', w, k1, k2, k3⟩ := st_idle ho h
    refine ⟨es' ++ [.statistics c w.conns], 
      ⟨s.pending, s.stats, rest, s.emitted ++ [.statistics c], s.consumed, s.ws,
        { w with pc := .sending c w.conns }⟩, ?_, ?_, rfl, rfl, rfl⟩
    · intro e he
      rcases List.mem_append.mp he with he | he
      · exact k1 e he
      · rw [List.mem_singleton.mp he]; trivial
    · rw [sysExec_append k2]
      have : Hub.step w (.broadcast c w.conns) = some (.ok { w with pc := .sending c w.conns }) := by
        simp only [Hub.step]; rw [if_pos ⟨k3, List.Perm.refl _⟩]
      simp only [sysExec, sysStep, ht, if_true, this]
  | delta c =>
    obtain ⟨es', w, k1, k2, k3⟩ := ws_idle ho h
    refine ⟨es' ++ [.delta c w.conns], 
      ⟨s.pending, s.stats, rest, s.emitted ++ [.delta c], s.consumed,
        { w with pc := .sending c w.conns }, s.st⟩, ?_, ?_, rfl, rfl, rfl⟩
    · intro e he
      rcases List.mem_append.mp he with he | he
      · exact k1 e he
      · rw [List.mem_singleton.mp he]; trivial
    · rw [sysExec_append k2]
      have : Hub.step w (.broadcast c w.conns) = some (.ok { w with pc := .sending c w.conns }) := by
        simp only [Hub.step]; rw [if_pos ⟨k3, List.Perm.refl _⟩]
      simp only [sysExec, sysStep, ht, if_true, this]

theorem drain {es : List (SysEvent δ β)} {s : Sys δ β} (ho : Ordinary es)
    (h : sysExec P Sys.init es = some (.ok s)) :
    ∃ es' s', (∀ e ∈ es', Internal e) ∧ sysExec P s es' = some (.ok s') ∧ s'.todo = [] ∧
      s'.pending = s.pending ∧ s'.consumed = s.consumed := by
  generalize hl : s.todo = l
  induction l generalizing es s with
  | nil => exact ⟨[], s, by simp, rfl, hl, rfl, rfl⟩
  | cons x rest ih =>
    obtain ⟨e1, s1, k1, k2, k3, k4, k5⟩ := one_effect ho h hl
    obtain ⟨e2, s2, m1, m2, m3, m4, m5⟩ := ih (ho.append k1) (by rw [sysExec_append h]; exact k2) k3
    refine ⟨e1 ++ e2, s2, ?_, by rw [sysExec_append k2]; exact m2, m3, by rw [m4, k4], by rw [m5, k5]⟩
    intro e he
    rcases List.mem_append.mp he with he | he
    · exact k1 e he
    · exact m1 e he

/-- C69: no deadlock.  Whatever state the program is in, if an interface is handing over a message, then
without any new input and without any client reading anything the consumer can go on to take that
message (or that message, or one before it, makes `Print` or `Delta` panic). -/
theorem C69_progress {es : List (SysEvent δ β)} {s : Sys δ β} (ho : Ordinary es)
    (h : sysExec P Sys.init es = some (.ok s)) {i : Nat} {m : Message δ} (hp : s.pending i = some m) :
    ∃ es', (∀ e ∈ es', Internal e) ∧
      ((∃ s', sysExec P s es' = some (.ok s') ∧ s'.consumed = s.consumed ++ [(i, m)]) ∨
        ∃ p, sysExec P s es' = some (.error p)) := by
  obtain ⟨e1, s1, k1, k2, k3, k4, k5⟩ := drain ho h
  refine ⟨e1 ++ [.take i], ?_, ?_⟩
  · intro e he
    rcases List.mem_append.mp he with he | he
    · exact k1 e he
    · rw [List.mem_singleton.mp he]; trivial
  · rw [sysExec_append k2]
    simp only [sysExec, sysStep, k4, hp, k3]
    cases hit : iteration P.sort P.opts P.out P.print P.delta s1.stats m with
    | error p => exact Or.inr ⟨p, rfl⟩
    | ok r => exact Or.inl ⟨_, rfl, by rw [k5]⟩

/-! ## C82 -/

/-- The number of broadcasts before a client's registration. -/
def before {γ : Type} (c : Hub.Id) : List (Hub.Event γ) → Nat
  | [] => 0
  | .register d :: es => if d = c then 0 else before c es
  | .broadcast _ _ :: es => before c es + 1
  | _ :: es => before c es

theorem since_eq_drop {γ : Type} {c : Hub.Id} {es : List (Hub.Event γ)} (hc : Hub.Spec.registered c es) :
    Hub.Spec.since c es = (Hub.Spec.broadcasts es).drop (before c es) := by
  induction es with
  | nil => cases hc
  | cons e es ih =>
    cases e with
    | register d =>
      by_cases hd : d = c
      · simp [Hub.Spec.since, before, hd, Hub.Spec.broadcasts]
      · have : Hub.Spec.registered c es := by
          rcases List.mem_cons.mp hc with h | h
          · injection h with h; exact absurd h.symm hd
          · exact h
        simp [Hub.Spec.since, before, hd, Hub.Spec.broadcasts, ih this]
    | _ =>
      have : Hub.Spec.registered c es := by
        rcases List.mem_cons.mp hc with h | h
        · cases h
        · exact h
      simp [Hub.Spec.since, before, Hub.Spec.broadcasts, ih this]

/-- The deltas of a sequence of messages that all went through `Delta`. -/
def deltasOf (delta : Message δ → GoM (Option β)) (ms : List (Message δ)) : List β :=
  ms.filterMap (fun m => match delta m with
    | .ok d => d
    | .error _ => none)

omit [DecidableEq β] in
theorem deltasOf_eq {delta : Message δ → GoM (Option β)} {ms : List (Message δ)} {ds : List (Option β)}
    (h : ms.map delta = ds.map Except.ok) : deltasOf delta ms = ds.filterMap id := by
  induction ms generalizing ds with
  | nil => cases ds with
    | nil => rfl
    | cons => simp at h
  | cons m ms ih => cases ds with
    | nil => simp at h
    | cons d ds =>
      simp only [List.map_cons, List.cons.injEq] at h
      have := ih h.2
      unfold deltasOf at this ⊢
      rw [List.filterMap_cons, h.1, List.filterMap_cons, this]
      rfl

/-- C82: what a Signal K client receives.  A client registered when `k` deltas had been broadcast has, at
every moment of every schedule, received an initial part of the deltas of the messages the consumer took,
starting at number `k`, in order and without gaps. -/
theorem C82_client {es : List (SysEvent δ β)} {s : Sys δ β} (ho : Ordinary es)
    (h : sysExec P Sys.init es = some (.ok s)) {c : Hub.Id} (hc : Hub.Spec.registered c (wsTrace es)) :
    s.ws.got c <+: (deltasOf P.delta (s.consumed.map Prod.snd)).drop (before c (wsTrace es)) := by
  have hinv := sysInv_exec h
  have h1 := Hub.C63_prefix ho.wsFresh ho.wsNo hinv.ws hc
  rw [since_eq_drop hc, hinv.deltas] at h1
  refine h1.trans ?_
  obtain ⟨_, _, _, ds, h4, h5, _⟩ := C81_outputs hinv.effects
  rw [List.filterMap_append] at h5
  rw [deltasOf_eq h4]
  by_cases hw : P.out.websockets = true
  · rw [if_pos hw] at h5
    rw [← h5, List.drop_append]
    exact List.prefix_append _ _
  · rw [if_neg hw] at h5
    rw [(List.append_eq_nil_iff.mp h5).1]
    simp

/-- C82: a client that has kept up (still connected, nothing waiting) has received every delta of the
messages consumed since it registered, once the consumer is done with them. -/
theorem C82_caught_up {es : List (SysEvent δ β)} {s : Sys δ β} (ho : Ordinary es)
    (h : sysExec P Sys.init es = some (.ok s)) {c : Hub.Id} (hc : Hub.Spec.registered c (wsTrace es))
    (hw : P.out.websockets = true) (hin : c ∈ s.ws.conns) (hbuf : (s.ws.chan c).buf = []) (hpc : s.ws.pc = .idle)
    (ht : s.todo = []) :
    s.ws.got c = (deltasOf P.delta (s.consumed.map Prod.snd)).drop (before c (wsTrace es)) := by
  have hinv := sysInv_exec h
  obtain ⟨_, _, _, ds, h4, h5, _⟩ := C81_outputs hinv.effects
  rw [ht, List.append_nil, if_pos hw] at h5
  rw [deltasOf_eq h4, ← h5, ← hinv.deltas, ← since_eq_drop hc]
  rcases Hub.C63_delivery ho.wsFresh ho.wsNo hinv.ws hc with ⟨_, _, _, k⟩ | k
  · rw [← k, hbuf, Hub.pend]
    simp [hpc]
  · exact absurd hin k.1

/-! ## A run -/

/-- WebSockets on; the delta of a message is its body, for PGN 127245 only. -/
def sampleProgram : Program Nat Nat :=
  ⟨List.insertionSort (· ≤ ·), Opts.default, ⟨true, false⟩, fun _ => .ok (),
    fun m => .ok (if m.header.pgn = 127245 then some m.body else none)⟩

/-- Two interfaces; client 5 registers between the first and the second message. -/
def sampleRun : List (SysEvent Nat Nat) :=
  [.read 0 (some (sampleMsg 127245 1)), .read 1 (some (sampleMsg 127488 2)), .take 0, .act,
    .statistics [("127245", 1)] [], .st .hub, .read 0 none, .delta 6 [], .ws .hub, .ws (.register 5),
    .read 0 (some (sampleMsg 127245 3)), .take 1, .act, .statistics [("127245", 1), ("127488", 1)] [], .take 0,
    .act, .st .hub, .statistics [("127245", 2), ("127488", 1)] [], .delta 6 [5], .ws .hub, .ws (.read 5), .ws .hub,
    .read 1 (some (sampleMsg 127250 9))]

example : (match sysExec sampleProgram Sys.init sampleRun with
    | some (.ok s) =>
      s.consumed.map (fun e => (e.1, e.2.header.pgn)) == [(0, 127245), (1, 127488), (0, 127245)] &&
      s.ws.got 5 == [6] && s.todo.length == 0 && s.stats.log == [("127245", 2), ("127488", 1)] &&
      before 5 (wsTrace sampleRun) == 1 && (s.pending 1).isSome
    | _ => false) = true := by decide +kernel

/-- The hypotheses of `C69_progress` and `C82_client` hold of this run. -/
example : Ordinary sampleRun ∧ Hub.Spec.registered 5 (wsTrace sampleRun) := by
  refine ⟨⟨?_, ?_, ?_, ?_⟩, by decide⟩
  · have e : wsTrace sampleRun = [.broadcast 6 [], .hub] ++ (.register 5 :: [.broadcast 6 [5], .hub, .read 5, .hub]) := by
      decide
    intro a b c h
    rw [e] at h
    rcases a with _ | ⟨x, _ | ⟨y, _ | ⟨z, a⟩⟩⟩
    · simp [Hub.Spec.touched]
    · simp at h
    · simp only [List.cons_append, List.nil_append, List.cons.injEq] at h
      obtain ⟨rfl, rfl, _⟩ := h
      simp [Hub.Spec.touched]
    · exfalso
      simp only [List.cons_append, List.nil_append, List.cons.injEq] at h
      have : (Hub.Event.register c : Hub.Event Nat) ∈ a ++ .register c :: b := by simp
      rw [← h.2.2.2] at this
      simp at this
  · intro a b c h
    exfalso
    have : (Hub.Event.register c : Hub.Event Counters) ∈ stTrace sampleRun := by rw [h]; simp
    simp [stTrace, sampleRun] at this
  · intro c hc
    simp [wsTrace, sampleRun] at hc
  · intro c hc
    simp [stTrace, sampleRun] at hc

end Argo.Main
