import Verif.Main.CatchUp
import Verif.Main.Statistics

set_option autoImplicit false

/-! # C94 for the statistics: a connected statistics client can always catch up -/

namespace Argo.Main

open Argo
open Argo.Nmea2k (Val)

variable {δ β : Type} [DecidableEq β] {P : Program δ β}

/-- The steps that need nobody but the program itself and client `c` of the statistics. -/
def WithStats (c : Hub.Id) (e : SysEvent δ β) : Prop := Internal e ∨ e = .st (.read c)

omit [DecidableEq β] in
theorem ws_withStats {c : Hub.Id} {es : List (SysEvent δ β)} (h : ∀ e ∈ es, WithStats c e) :
    ∀ x ∈ wsTrace es, (∀ d, x ≠ .register d) ∧ ∀ d, x ≠ .unregister d := by
  induction es with
  | nil => intro x hx; cases hx
  | cons e es ih =>
    have ih' := ih (fun x hx => h x (by simp [hx]))
    have he := h e (by simp)
    intro x hx
    cases e with
    | delta m o =>
      rcases List.mem_cons.mp hx with rfl | hx
      · exact ⟨fun d h => (by cases h), fun d h => (by cases h)⟩
      · exact ih' x hx
    | ws y =>
      rcases List.mem_cons.mp hx with rfl | hx
      · rcases he with he | he
        · rw [show x = .hub from he]; exact ⟨fun d h => (by cases h), fun d h => (by cases h)⟩
        · cases he
      · exact ih' x hx
    | _ => exact ih' x hx

omit [DecidableEq β] in
theorem st_withStats {c : Hub.Id} {es : List (SysEvent δ β)} (h : ∀ e ∈ es, WithStats c e) :
    ∀ x ∈ stTrace es, (∀ d, x ≠ .register d) ∧ ∀ d, x ≠ .unregister d := by
  induction es with
  | nil => intro x hx; cases hx
  | cons e es ih =>
    have ih' := ih (fun x hx => h x (by simp [hx]))
    have he := h e (by simp)
    intro x hx
    cases e with
    | statistics m o =>
      rcases List.mem_cons.mp hx with rfl | hx
      · exact ⟨fun d h => (by cases h), fun d h => (by cases h)⟩
      · exact ih' x hx
    | st y =>
      rcases List.mem_cons.mp hx with rfl | hx
      · rcases he with he | he
        · rw [show x = .hub from he]; exact ⟨fun d h => (by cases h), fun d h => (by cases h)⟩
        · injection he with he; subst he; exact ⟨fun d h => (by cases h), fun d h => (by cases h)⟩
      · exact ih' x hx
    | _ => exact ih' x hx

theorem Ordinary.withStats {c : Hub.Id} {a b : List (SysEvent δ β)} (h : Ordinary a) (hb : ∀ e ∈ b, WithStats c e) :
    Ordinary (a ++ b) := by
  refine ⟨?_, ?_, ?_, ?_⟩
  · rw [wsTrace_append]; exact fresh_append_quiet h.wsFresh (fun d hd => (ws_withStats hb _ hd).1 d rfl)
  · rw [stTrace_append]; exact fresh_append_quiet h.stFresh (fun d hd => (st_withStats hb _ hd).1 d rfl)
  · rw [wsTrace_append]
    intro d hd
    rcases List.mem_append.mp hd with hd | hd
    · exact h.wsNo d hd
    · exact (ws_withStats hb _ hd).2 d rfl
  · rw [stTrace_append]
    intro d hd
    rcases List.mem_append.mp hd with hd | hd
    · exact h.stNo d hd
    · exact (st_withStats hb _ hd).2 d rfl

omit [DecidableEq β] in
theorem withStats_append {c : Hub.Id} {a b : List (SysEvent δ β)} (h : ∀ e ∈ a, WithStats c e)
    (h' : ∀ e ∈ b, WithStats c e) : ∀ e ∈ a ++ b, WithStats c e := by
  intro e he
  rcases List.mem_append.mp he with he | he
  · exact h e he
  · exact h' e he

/-- The client empties its channel. -/
theorem read_all_stats (c : Hub.Id) (s : Sys δ β) : ∃ es' w, (∀ e ∈ es', WithStats c e) ∧
    sysExec P s es' = some (.ok { s with st := w }) ∧ (w.chan c).buf = [] ∧ w.pc = s.st.pc ∧ w.conns = s.st.conns := by
  generalize hb : (s.st.chan c).buf = l
  induction l generalizing s with
  | nil => exact ⟨[], s.st, by simp, rfl, hb, rfl, rfl⟩
  | cons m l ih =>
    have hstep : Hub.step s.st (.read c) = some (.ok { s.st with
        chan := Hub.upd s.st.chan c ⟨l, (s.st.chan c).closed⟩, got := Hub.upd s.st.got c (s.st.got c ++ [m]) }) := by
      simp only [Hub.step, hb]
    obtain ⟨es', w, k1, k2, k3, k4, k5⟩ := ih { s with st := { s.st with
        chan := Hub.upd s.st.chan c ⟨l, (s.st.chan c).closed⟩, got := Hub.upd s.st.got c (s.st.got c ++ [m]) } }
      (by simp [Hub.upd])
    refine ⟨.st (.read c) :: es', w, ?_, ?_, k3, k4, k5⟩
    · intro e he
      rcases List.mem_cons.mp he with rfl | he
      · exact Or.inr rfl
      · exact k1 e he
    · simp only [sysExec, sysStep, own, if_true, hstep]
      exact k2

/-- The hub finishes its loop while the client reads, and the client stays connected. -/
theorem st_idle_keep {c : Hub.Id} {es : List (SysEvent δ β)} {s : Sys δ β} (ho : Ordinary es)
    (h : sysExec P Sys.init es = some (.ok s)) (hc : c ∈ s.st.conns) :
    ∃ es' w, (∀ e ∈ es', WithStats c e) ∧ sysExec P s es' = some (.ok { s with st := w }) ∧ w.pc = .idle ∧
      c ∈ w.conns := by
  cases hpc : s.st.pc with
  | idle => exact ⟨[], s.st, by simp, rfl, hpc, hc⟩
  | sending m todo =>
    induction todo generalizing es s with
    | nil =>
      obtain ⟨e1, w1, a1, a2, a3, a4, a5⟩ := read_all_stats (P := P) c s
      have h1 : sysExec P Sys.init (es ++ e1) = some (.ok { s with st := w1 }) := by rw [sysExec_append h, a2]
      obtain ⟨w, h2, h3⟩ := Hub.C64_hub_never_waits (ho.withStats a1).stFresh (sysInv_exec h1).st
        (show w1.pc = _ from a4.trans hpc)
      have hstep : sysExec P { s with st := w1 } [.st .hub] = some (.ok { s with st := w }) := by
        simp only [sysExec, sysStep, own, if_true, h2]
      refine ⟨e1 ++ [.st .hub], w, withStats_append a1 (by intro e he; rw [List.mem_singleton.mp he]; exact Or.inl rfl),
        by rw [sysExec_append a2, hstep], h3, hub_keeps h2 a3 (by rw [a5]; exact hc)⟩
    | cons d todo ih =>
      obtain ⟨e1, w1, a1, a2, a3, a4, a5⟩ := read_all_stats (P := P) c s
      have h1 : sysExec P Sys.init (es ++ e1) = some (.ok { s with st := w1 }) := by rw [sysExec_append h, a2]
      obtain ⟨w, h2, h3⟩ := Hub.C64_hub_never_waits (ho.withStats a1).stFresh (sysInv_exec h1).st
        (show w1.pc = _ from a4.trans hpc)
      have hstep : sysExec P { s with st := w1 } [.st .hub] = some (.ok { s with st := w }) := by
        simp only [sysExec, sysStep, own, if_true, h2]
      have hw : ∀ e ∈ e1 ++ [.st .hub], WithStats c e :=
        withStats_append a1 (by intro e he; rw [List.mem_singleton.mp he]; exact Or.inl rfl)
      have h' : sysExec P Sys.init (es ++ (e1 ++ [.st .hub])) = some (.ok { s with st := w }) := by
        rw [sysExec_append h, sysExec_append a2, hstep]
      obtain ⟨es', w', k1, k2, k3, k4⟩ := ih (ho.withStats hw) h' (hub_keeps h2 a3 (by rw [a5]; exact hc)) h3
      refine ⟨(e1 ++ [.st .hub]) ++ es', w', withStats_append hw k1, ?_, k3, k4⟩
      rw [sysExec_append (s1 := { s with st := w }) (by rw [sysExec_append a2, hstep])]
      exact k2

theorem one_effect_keep' {c : Hub.Id} {es : List (SysEvent δ β)} {s : Sys δ β} (ho : Ordinary es)
    (h : sysExec P Sys.init es = some (.ok s)) (hc : c ∈ s.st.conns) {x : Effect β} {rest : List (Effect β)}
    (ht : s.todo = x :: rest) :
    ∃ es' s', (∀ e ∈ es', WithStats c e) ∧ sysExec P s es' = some (.ok s') ∧ s'.todo = rest ∧
      s'.pending = s.pending ∧ s'.consumed = s.consumed ∧ c ∈ s'.st.conns := by
  cases x with
  | logged v => exact ⟨[.act], { s with todo := rest, emitted := s.emitted ++ [.logged v] }, by simp [WithStats, Internal], by simp only [sysExec, sysStep, ht], rfl, rfl, rfl, hc⟩
  | screen v => exact ⟨[.act], { s with todo := rest, emitted := s.emitted ++ [.screen v] }, by simp [WithStats, Internal], by simp only [sysExec, sysStep, ht], rfl, rfl, rfl, hc⟩
  | publish v => exact ⟨[.act], { s with todo := rest, emitted := s.emitted ++ [.publish v] }, by simp [WithStats, Internal], by simp only [sysExec, sysStep, ht], rfl, rfl, rfl, hc⟩
  | delta v =>
    obtain ⟨es', w, k1, k2, k3⟩ := ws_idle ho h
    refine ⟨es' ++ [.delta v w.conns],
      ⟨s.pending, s.stats, rest, s.emitted ++ [.delta v], s.consumed,
        { w with pc := .sending v w.conns }, s.st⟩,
      withStats_append (fun e he => Or.inl (k1 e he)) (by intro e he; rw [List.mem_singleton.mp he]; exact Or.inl trivial),
      ?_, rfl, rfl, rfl, hc⟩
    rw [sysExec_append k2]
    have : Hub.step w (.broadcast v w.conns) = some (.ok { w with pc := .sending v w.conns }) := by
      simp only [Hub.step]; rw [if_pos ⟨k3, List.Perm.refl _⟩]
    simp only [sysExec, sysStep, ht, if_true, this]
  | statistics v =>
    obtain ⟨es', w, k1, k2, k3, k4⟩ := st_idle_keep ho h hc
    refine ⟨es' ++ [.statistics v w.conns],
      ⟨s.pending, s.stats, rest, s.emitted ++ [.statistics v], s.consumed, s.ws,
        { w with pc := .sending v w.conns }⟩,
      withStats_append k1 (by intro e he; rw [List.mem_singleton.mp he]; exact Or.inl trivial), ?_, rfl, rfl, rfl, k4⟩
    rw [sysExec_append k2]
    have : Hub.step w (.broadcast v w.conns) = some (.ok { w with pc := .sending v w.conns }) := by
      simp only [Hub.step]; rw [if_pos ⟨k3, List.Perm.refl _⟩]
    simp only [sysExec, sysStep, ht, if_true, this]

theorem drain_keep_stats {c : Hub.Id} {es : List (SysEvent δ β)} {s : Sys δ β} (ho : Ordinary es)
    (h : sysExec P Sys.init es = some (.ok s)) (hc : c ∈ s.st.conns) :
    ∃ es' s', (∀ e ∈ es', WithStats c e) ∧ sysExec P s es' = some (.ok s') ∧ s'.todo = [] ∧
      s'.pending = s.pending ∧ s'.consumed = s.consumed ∧ c ∈ s'.st.conns := by
  generalize hl : s.todo = l
  induction l generalizing es s with
  | nil => exact ⟨[], s, by simp, rfl, hl, rfl, rfl, hc⟩
  | cons x rest ih =>
    obtain ⟨e1, s1, k1, k2, k3, k4, k5, k6⟩ := one_effect_keep' ho h hc hl
    obtain ⟨e2, s2, m1, m2, m3, m4, m5, m6⟩ := ih (ho.withStats k1) (by rw [sysExec_append h]; exact k2) k6 k3
    exact ⟨e1 ++ e2, s2, withStats_append k1 m1, by rw [sysExec_append k2]; exact m2, m3, by rw [m4, k4],
      by rw [m5, k5], m6⟩

omit [DecidableEq β] in
theorem before_le {γ : Type} {c : Hub.Id} {es : List (Hub.Event γ)} (hc : Hub.Spec.registered c es) :
    before c es ≤ (Hub.Spec.broadcasts es).length := by
  induction es with
  | nil => cases hc
  | cons e es ih =>
    cases e with
    | register d =>
      by_cases hd : d = c
      · simp [before, hd]
      · have : Hub.Spec.registered c es := by
          rcases List.mem_cons.mp hc with h | h
          · injection h with h; exact absurd h.symm hd
          · exact h
        simpa [before, hd, Hub.Spec.broadcasts] using ih this
    | _ =>
      have : Hub.Spec.registered c es := by
        rcases List.mem_cons.mp hc with h | h
        · cases h
        · exact h
      simpa [before, Hub.Spec.broadcasts] using ih this

/-- The statistics broadcast before a client registered are not more than the messages taken. -/
theorem before_le_history {c : Hub.Id} {es : List (SysEvent δ β)} {s : Sys δ β} (ho : Ordinary es)
    (h : sysExec P Sys.init es = some (.ok s)) (hc : c ∈ s.st.conns) :
    before c (stTrace es) ≤ s.history.length := by
  have hinv := sysInv_exec h
  have hreg : Hub.Spec.registered c (stTrace es) := (Hub.inv_exec ho.stFresh hinv.st).reg c hc
  obtain ⟨_, h2, _⟩ := C81_outputs hinv.effects
  rw [List.filterMap_append, history_eq] at h2
  have h3 : (s.emitted.filterMap Effect.counters?).length ≤ s.history.length := by
    have := congrArg List.length h2
    rw [List.length_append] at this
    split at this
    · simp [snapshots] at this; omega
    · simp only [List.length_nil] at this; omega
  have h4 : before c (stTrace es) ≤ (Hub.Spec.broadcasts (stTrace es)).length := before_le hreg
  rw [hinv.counters] at h4
  omega

/-- Everything is finished and the client has read everything. -/
theorem settle_stats (hs : Sorts P.sort) {c : Hub.Id} {es : List (SysEvent δ β)} {s : Sys δ β} (ho : Ordinary es)
    (h : sysExec P Sys.init es = some (.ok s)) (hc : c ∈ s.st.conns) (hw : P.out.websockets = true) :
    ∃ es' s', (∀ e ∈ es', WithStats c e) ∧ sysExec P s es' = some (.ok s') ∧ s'.pending = s.pending ∧
      s'.consumed = s.consumed ∧ c ∈ s'.st.conns ∧ s'.todo = [] ∧ s'.st.pc = .idle ∧ (s'.st.chan c).buf = [] ∧
      (s'.st.got c).length = s.history.length - before c (stTrace es) ∧
      ∀ log, (s'.st.got c).getLast? = some log → Counts s.history log := by
  obtain ⟨e1, s1, a1, a2, a3, a4, a5, a6⟩ := drain_keep_stats ho h hc
  have h1 : sysExec P Sys.init (es ++ e1) = some (.ok s1) := by rw [sysExec_append h, a2]
  obtain ⟨e2, w2, b1, b2, b3, b4⟩ := st_idle_keep (ho.withStats a1) h1 a6
  obtain ⟨e3, w3, c1, c2, c3, c4, c5⟩ := read_all_stats (P := P) c { s1 with st := w2 }
  have hall : sysExec P s (e1 ++ (e2 ++ e3)) = some (.ok { s1 with st := w3 }) := by
    rw [sysExec_append a2, sysExec_append b2, c2]
  have hwith : ∀ e ∈ e1 ++ (e2 ++ e3), WithStats c e := withStats_append a1 (withStats_append b1 c1)
  have hfin : sysExec P Sys.init (es ++ (e1 ++ (e2 ++ e3))) = some (.ok { s1 with st := w3 }) := by
    rw [sysExec_append h, hall]
  have hreg : Hub.Spec.registered c (stTrace es) :=
    (Hub.inv_exec ho.stFresh (sysInv_exec h).st).reg c hc
  have hcon : c ∈ w3.conns := by rw [c5]; exact b4
  have hpc : w3.pc = .idle := by rw [c4]; exact b3
  obtain ⟨g1, g2⟩ := C97_caught_up hs (ho.withStats hwith) hfin (c := c)
    (by rw [stTrace_append]; exact List.mem_append_left _ hreg) hw hcon c3 hpc a3
  have hh : Sys.history { s1 with st := w3 } = s.history := by
    simp only [Sys.history, a5]
  rw [hh] at g1 g2
  rw [stTrace_append, before_append hreg] at g1
  exact ⟨e1 ++ (e2 ++ e3), { s1 with st := w3 }, hwith, hall, a4, a5, hcon, a3, hpc, c3, g1, g2⟩

section
variable {sort : List String → List String} {opts : Opts} {out : Outputs}
  {verbose : Bool} {denv : Signalk.Env Val} {marshal : Nat → List (Signalk.Update Val) → Option β}

/-- **C94** (the statistics).  In every reachable state, if a client of the statistics is connected and an interface
is handing over a message, then with nothing but the program's own steps and that client reading, the message is
taken and counted and the client receives one statistics message for each message taken since it registered,
without being disconnected; the last of them counts every message the program has taken, that one included. -/
theorem C94_statistics (hs : Sorts sort) {es : List (SysEvent Body β)} (ho : Ordinary es) (hg : GenuineInput es)
    {s : Sys Body β} (h : sysExec (shippedProgram sort opts out verbose denv marshal) Sys.init es = some (.ok s))
    (hw : out.websockets = true) {c : Hub.Id} (hc : c ∈ s.st.conns) {i : Nat} {m : Message Body}
    (hp : s.pending i = some m) :
    ∃ es' s', (∀ e ∈ es', WithStats c e) ∧
      sysExec (shippedProgram sort opts out verbose denv marshal) s es' = some (.ok s') ∧
      s'.consumed = s.consumed ++ [(i, m)] ∧ c ∈ s'.st.conns ∧
      (s'.st.got c).length = s.history.length + 1 - before c (stTrace es) ∧
      ∃ log, (s'.st.got c).getLast? = some log ∧ Counts (s.history ++ [m.header.pgn]) log := by
  obtain ⟨e1, s1, a1, a2, a3, a4, a5, a6⟩ := drain_keep_stats ho h hc
  have h1 : sysExec (shippedProgram sort opts out verbose denv marshal) Sys.init (es ++ e1) = some (.ok s1) := by
    rw [sysExec_append h, a2]
  have hm : m ∈ readBy i es := by rw [← C69_order h i, hp]; simp
  obtain ⟨q1, d, q2⟩ := shipped_ok (sort := sort) (opts := opts) (out := out) (verbose := verbose) (denv := denv)
    (marshal := marshal) (hg i m hm).1 (hg i m hm).2
  have hit : ∃ x, iteration (shippedProgram sort opts out verbose denv marshal).sort
      (shippedProgram sort opts out verbose denv marshal).opts (shippedProgram sort opts out verbose denv marshal).out
      (shippedProgram sort opts out verbose denv marshal).print
      (shippedProgram sort opts out verbose denv marshal).delta s1.stats m = .ok x := by
    unfold iteration
    rw [q1, q2]
    cases shown (shippedProgram sort opts out verbose denv marshal).opts m.header <;> exact ⟨_, rfl⟩
  obtain ⟨⟨st, ef⟩, hit⟩ := hit
  have hstep : sysExec (shippedProgram sort opts out verbose denv marshal) s1 [.take i] =
      some (.ok { s1 with pending := setPending s1.pending i none, stats := st, todo := ef,
                          consumed := s1.consumed ++ [(i, m)] }) := by
    simp only [sysExec, sysStep, a4, hp, a3, hit]
  have hw2 : ∀ e ∈ e1 ++ [.take i], WithStats c e :=
    withStats_append a1 (by intro e he; rw [List.mem_singleton.mp he]; exact Or.inl trivial)
  have h2 : sysExec (shippedProgram sort opts out verbose denv marshal) Sys.init (es ++ (e1 ++ [.take i])) =
      some (.ok { s1 with pending := setPending s1.pending i none, stats := st, todo := ef,
                          consumed := s1.consumed ++ [(i, m)] }) := by
    rw [sysExec_append h, sysExec_append a2, hstep]
  obtain ⟨e3, s3, c1, c2, _, c4, c5, _, _, _, c6, c7⟩ := settle_stats hs (ho.withStats hw2) h2 a6 hw
  have hreg : Hub.Spec.registered c (stTrace es) :=
    (Hub.inv_exec ho.stFresh (sysInv_exec h).st).reg c hc
  have hx := hstep
  rw [← sysExec_append a2] at hx
  have hh : Sys.history { s1 with pending := setPending s1.pending i none, stats := st, todo := ef,
                                  consumed := s1.consumed ++ [(i, m)] } = s.history ++ [m.header.pgn] := by
    simp [Sys.history, a5]
  rw [hh] at c6 c7
  rw [stTrace_append, before_append hreg] at c6
  have hb := before_le_history ho h hc
  have hne : s3.st.got c ≠ [] := by
    intro e
    rw [e] at c6
    simp at c6
    omega
  refine ⟨(e1 ++ [.take i]) ++ e3, s3, withStats_append hw2 c1, ?_, by rw [c4]; simp only [a5], c5, by simpa only [List.length_append, List.length_singleton] using c6,
    _, List.getLast?_eq_some_getLast hne, c7 _ (List.getLast?_eq_some_getLast hne)⟩
  rw [sysExec_append hx]
  exact c2

end

/-! ## The hypotheses -/

/-- A client of the statistics registers and the heading is read. -/
def statsRun : List (SysEvent Body (Nat × List Signalk.Str)) := [.st (.register 5), .read 0 (some runMsg)]

/-- The hypotheses of `C94_statistics` hold of this run: the client is connected and the message is being handed over. -/
example : Sorts (List.insertionSort (· ≤ ·)) ∧ Ordinary statsRun ∧ GenuineInput statsRun ∧
    (match sysExec runProgram Sys.init statsRun with
    | some (.ok s) => 5 ∈ s.st.conns ∧ s.pending 0 = some runMsg
    | _ => False) := by
  refine ⟨sorts_insertionSort, ⟨?_, ?_, ?_, ?_⟩, ?_, ?_, rfl⟩
  · intro a b c h
    exfalso
    have : (Hub.Event.register c : Hub.Event (Nat × List Signalk.Str)) ∈ wsTrace statsRun := by rw [h]; simp
    simp [wsTrace, statsRun] at this
  · intro a b c h
    have e : stTrace statsRun = [.register 5] := rfl
    rw [e] at h
    cases a with
    | nil => simp [Hub.Spec.touched]
    | cons x a => simp at h
  · intro c hc
    simp [wsTrace, statsRun] at hc
  · intro c hc
    simp [stTrace, statsRun] at hc
  · intro i m hm
    have e : readBy i statsRun = if i = 0 then [runMsg] else [] := by
      by_cases h : 0 = i
      · subst h; rfl
      · have h' : i ≠ 0 := fun e => h e.symm
        simp [statsRun, readBy, h, h']
    rw [e] at hm
    split at hm
    · rw [List.mem_singleton.mp hm]
      exact ⟨Or.inl ⟨runTables, runRaw, runMsg_parsed⟩, (List.reverse_perm runMsg.body.data : (runMsg.body.data.reverse).Perm _)⟩
    · cases hm
  · exact List.mem_cons_self

end Argo.Main
