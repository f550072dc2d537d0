import Verif.Main.Whole

set_option autoImplicit false

/-! # C94: a connected client can always catch up -/

namespace Argo.Main

open Argo
open Argo.Nmea2k (Val)

variable {δ β : Type} [DecidableEq β] {P : Program δ β}

/-- The steps that need nobody but the program itself and client `c`. -/
def With (c : Hub.Id) (e : SysEvent δ β) : Prop := Internal e ∨ e = .ws (.read c)

omit [DecidableEq β] in
theorem before_append {γ : Type} {c : Hub.Id} {a b : List (Hub.Event γ)} (h : Hub.Spec.registered c a) :
    before c (a ++ b) = before c a := by
  induction a with
  | nil => cases h
  | cons e a ih =>
    cases e with
    | register d =>
      by_cases hd : d = c
      · simp [before, hd]
      · have : Hub.Spec.registered c a := by
          rcases List.mem_cons.mp h with h | h
          · injection h with h; exact absurd h.symm hd
          · exact h
        simp [before, hd, ih this]
    | _ =>
      have : Hub.Spec.registered c a := by
        rcases List.mem_cons.mp h with h | h
        · cases h
        · exact h
      simp [before, ih this]

omit [DecidableEq β] in
theorem ws_with {c : Hub.Id} {es : List (SysEvent δ β)} (h : ∀ e ∈ es, With c e) :
    ∀ x ∈ wsTrace es, (∀ d, x ≠ .register d) ∧ ∀ d, x ≠ .unregister d := by
  induction es with
  | nil => intro x hx; cases hx
  | cons e es ih =>
    have ih' := ih (fun x hx => h x (by simp [hx]))
    have he := h e (by simp)
    intro x hx
    cases e with
    | delta m o =>
      rcases List.mem_cons.mp hx with rfl | hx
      · exact ⟨fun d h => (by cases h), fun d h => (by cases h)⟩
      · exact ih' x hx
    | ws y =>
      rcases List.mem_cons.mp hx with rfl | hx
      · rcases he with he | he
        · rw [show x = .hub from he]; exact ⟨fun d h => (by cases h), fun d h => (by cases h)⟩
        · injection he with he; subst he; exact ⟨fun d h => (by cases h), fun d h => (by cases h)⟩
      · exact ih' x hx
    | _ => exact ih' x hx

omit [DecidableEq β] in
theorem st_with {c : Hub.Id} {es : List (SysEvent δ β)} (h : ∀ e ∈ es, With c e) :
    ∀ x ∈ stTrace es, (∀ d, x ≠ .register d) ∧ ∀ d, x ≠ .unregister d := by
  induction es with
  | nil => intro x hx; cases hx
  | cons e es ih =>
    have ih' := ih (fun x hx => h x (by simp [hx]))
    have he := h e (by simp)
    intro x hx
    cases e with
    | statistics m o =>
      rcases List.mem_cons.mp hx with rfl | hx
      · exact ⟨fun d h => (by cases h), fun d h => (by cases h)⟩
      · exact ih' x hx
    | st y =>
      rcases List.mem_cons.mp hx with rfl | hx
      · rcases he with he | he
        · rw [show x = .hub from he]; exact ⟨fun d h => (by cases h), fun d h => (by cases h)⟩
        · cases he
      · exact ih' x hx
    | _ => exact ih' x hx

theorem Ordinary.with {c : Hub.Id} {a b : List (SysEvent δ β)} (h : Ordinary a) (hb : ∀ e ∈ b, With c e) :
    Ordinary (a ++ b) := by
  refine ⟨?_, ?_, ?_, ?_⟩
  · rw [wsTrace_append]; exact fresh_append_quiet h.wsFresh (fun d hd => (ws_with hb _ hd).1 d rfl)
  · rw [stTrace_append]; exact fresh_append_quiet h.stFresh (fun d hd => (st_with hb _ hd).1 d rfl)
  · rw [wsTrace_append]
    intro d hd
    rcases List.mem_append.mp hd with hd | hd
    · exact h.wsNo d hd
    · exact (ws_with hb _ hd).2 d rfl
  · rw [stTrace_append]
    intro d hd
    rcases List.mem_append.mp hd with hd | hd
    · exact h.stNo d hd
    · exact (st_with hb _ hd).2 d rfl

omit [DecidableEq β] in
theorem readBy_with {c : Hub.Id} {i : Nat} {es : List (SysEvent δ β)} (h : ∀ e ∈ es, With c e) : readBy i es = [] := by
  induction es with
  | nil => rfl
  | cons e es ih =>
    have ih' := ih (fun x hx => h x (by simp [hx]))
    cases e with
    | read j r => rcases h (.read j r) (by simp) with h | h <;> cases h
    | _ => exact ih'

/-- The client empties its channel. -/
theorem read_all (c : Hub.Id) (s : Sys δ β) : ∃ es' w, (∀ e ∈ es', With c e) ∧
    sysExec P s es' = some (.ok { s with ws := w }) ∧ (w.chan c).buf = [] ∧ w.pc = s.ws.pc ∧ w.conns = s.ws.conns := by
  generalize hb : (s.ws.chan c).buf = l
  induction l generalizing s with
  | nil => exact ⟨[], s.ws, by simp, rfl, hb, rfl, rfl⟩
  | cons m l ih =>
    have hstep : Hub.step s.ws (.read c) = some (.ok { s.ws with
        chan := Hub.upd s.ws.chan c ⟨l, (s.ws.chan c).closed⟩, got := Hub.upd s.ws.got c (s.ws.got c ++ [m]) }) := by
      simp only [Hub.step, hb]
    obtain ⟨es', w, k1, k2, k3, k4, k5⟩ := ih { s with ws := { s.ws with
        chan := Hub.upd s.ws.chan c ⟨l, (s.ws.chan c).closed⟩, got := Hub.upd s.ws.got c (s.ws.got c ++ [m]) } }
      (by simp [Hub.upd])
    refine ⟨.ws (.read c) :: es', w, ?_, ?_, k3, k4, k5⟩
    · intro e he
      rcases List.mem_cons.mp he with rfl | he
      · exact Or.inr rfl
      · exact k1 e he
    · simp only [sysExec, sysStep, own, if_true, hstep]
      exact k2

theorem hub_keeps {c : Hub.Id} {s w : Hub.State β} (hs : Hub.step s .hub = some (.ok w))
    (hb : (s.chan c).buf = []) (hc : c ∈ s.conns) : c ∈ w.conns := by
  simp only [Hub.step] at hs
  split at hs
  · cases hs
  · simp only [Option.some.injEq, Except.ok.injEq] at hs; subst hs; exact hc
  · rename_i m d todo _
    simp only [Option.some.injEq] at hs
    unfold Hub.visit at hs
    split at hs
    · cases hs
    · split at hs
      · simp only [Except.ok.injEq] at hs; subst hs; exact hc
      · rename_i hcap
        simp only [Except.ok.injEq] at hs
        subst hs
        have hne : c ≠ d := by
          rintro rfl
          rw [hb] at hcap
          simp [Hub.cap] at hcap
        exact (List.mem_erase_of_ne hne).mpr hc

omit [DecidableEq β] in
theorem with_of_internal {c : Hub.Id} {es : List (SysEvent δ β)} (h : ∀ e ∈ es, Internal e) : ∀ e ∈ es, With c e :=
  fun e he => Or.inl (h e he)

omit [DecidableEq β] in
theorem with_append {c : Hub.Id} {a b : List (SysEvent δ β)} (h : ∀ e ∈ a, With c e) (h' : ∀ e ∈ b, With c e) :
    ∀ e ∈ a ++ b, With c e := by
  intro e he
  rcases List.mem_append.mp he with he | he
  · exact h e he
  · exact h' e he

/-- The hub finishes its loop while the client reads, and the client stays connected. -/
theorem ws_idle_keep {c : Hub.Id} {es : List (SysEvent δ β)} {s : Sys δ β} (ho : Ordinary es)
    (h : sysExec P Sys.init es = some (.ok s)) (hc : c ∈ s.ws.conns) :
    ∃ es' w, (∀ e ∈ es', With c e) ∧ sysExec P s es' = some (.ok { s with ws := w }) ∧ w.pc = .idle ∧
      c ∈ w.conns := by
  cases hpc : s.ws.pc with
  | idle => exact ⟨[], s.ws, by simp, rfl, hpc, hc⟩
  | sending m todo =>
    induction todo generalizing es s with
    | nil =>
      obtain ⟨e1, w1, a1, a2, a3, a4, a5⟩ := read_all (P := P) c s
      have h1 : sysExec P Sys.init (es ++ e1) = some (.ok { s with ws := w1 }) := by rw [sysExec_append h, a2]
      obtain ⟨w, h2, h3⟩ := Hub.C64_hub_never_waits (ho.with a1).wsFresh (sysInv_exec h1).ws
        (show w1.pc = _ from a4.trans hpc)
      have hstep : sysExec P { s with ws := w1 } [.ws .hub] = some (.ok { s with ws := w }) := by
        simp only [sysExec, sysStep, own, if_true, h2]
      refine ⟨e1 ++ [.ws .hub], w, with_append a1 (by intro e he; rw [List.mem_singleton.mp he]; exact Or.inl rfl),
        by rw [sysExec_append a2, hstep], h3, hub_keeps h2 a3 (by rw [a5]; exact hc)⟩
    | cons d todo ih =>
      obtain ⟨e1, w1, a1, a2, a3, a4, a5⟩ := read_all (P := P) c s
      have h1 : sysExec P Sys.init (es ++ e1) = some (.ok { s with ws := w1 }) := by rw [sysExec_append h, a2]
      obtain ⟨w, h2, h3⟩ := Hub.C64_hub_never_waits (ho.with a1).wsFresh (sysInv_exec h1).ws
        (show w1.pc = _ from a4.trans hpc)
      have hstep : sysExec P { s with ws := w1 } [.ws .hub] = some (.ok { s with ws := w }) := by
        simp only [sysExec, sysStep, own, if_true, h2]
      have hw : ∀ e ∈ e1 ++ [.ws .hub], With c e :=
        with_append a1 (by intro e he; rw [List.mem_singleton.mp he]; exact Or.inl rfl)
      have h' : sysExec P Sys.init (es ++ (e1 ++ [.ws .hub])) = some (.ok { s with ws := w }) := by
        rw [sysExec_append h, sysExec_append a2, hstep]
      obtain ⟨es', w', k1, k2, k3, k4⟩ := ih (ho.with hw) h' (hub_keeps h2 a3 (by rw [a5]; exact hc)) h3
      refine ⟨(e1 ++ [.ws .hub]) ++ es', w', with_append hw k1, ?_, k3, k4⟩
      rw [sysExec_append (s1 := { s with ws := w }) (by rw [sysExec_append a2, hstep])]
      exact k2

theorem one_effect_keep {c : Hub.Id} {es : List (SysEvent δ β)} {s : Sys δ β} (ho : Ordinary es)
    (h : sysExec P Sys.init es = some (.ok s)) (hc : c ∈ s.ws.conns) {x : Effect β} {rest : List (Effect β)}
    (ht : s.todo = x :: rest) :
    ∃ es' s', (∀ e ∈ es', With c e) ∧ sysExec P s es' = some (.ok s') ∧ s'.todo = rest ∧
      s'.pending = s.pending ∧ s'.consumed = s.consumed ∧ c ∈ s'.ws.conns := by
  cases x with
  | logged v => exact ⟨[.act], { s with todo := rest, emitted := s.emitted ++ [.logged v] }, by simp [With, Internal], by simp only [sysExec, sysStep, ht], rfl, rfl, rfl, hc⟩
  | screen v => exact ⟨[.act], { s with todo := rest, emitted := s.emitted ++ [.screen v] }, by simp [With, Internal], by simp only [sysExec, sysStep, ht], rfl, rfl, rfl, hc⟩
  | publish v => exact ⟨[.act], { s with todo := rest, emitted := s.emitted ++ [.publish v] }, by simp [With, Internal], by simp only [sysExec, sysStep, ht], rfl, rfl, rfl, hc⟩
  | statistics v =>
    obtain ⟨es', w, k1, k2, k3⟩ := st_idle ho h
    refine ⟨es' ++ [.statistics v w.conns],
      ⟨s.pending, s.stats, rest, s.emitted ++ [.statistics v], s.consumed, s.ws,
        { w with pc := .sending v w.conns }⟩,
      with_append (with_of_internal k1) (by intro e he; rw [List.mem_singleton.mp he]; exact Or.inl trivial),
      ?_, rfl, rfl, rfl, hc⟩
    rw [sysExec_append k2]
    have : Hub.step w (.broadcast v w.conns) = some (.ok { w with pc := .sending v w.conns }) := by
      simp only [Hub.step]; rw [if_pos ⟨k3, List.Perm.refl _⟩]
    simp only [sysExec, sysStep, ht, if_true, this]
  | delta v =>
    obtain ⟨es', w, k1, k2, k3, k4⟩ := ws_idle_keep ho h hc
    refine ⟨es' ++ [.delta v w.conns],
      ⟨s.pending, s.stats, rest, s.emitted ++ [.delta v], s.consumed,
        { w with pc := .sending v w.conns }, s.st⟩,
      with_append k1 (by intro e he; rw [List.mem_singleton.mp he]; exact Or.inl trivial), ?_, rfl, rfl, rfl, k4⟩
    rw [sysExec_append k2]
    have : Hub.step w (.broadcast v w.conns) = some (.ok { w with pc := .sending v w.conns }) := by
      simp only [Hub.step]; rw [if_pos ⟨k3, List.Perm.refl _⟩]
    simp only [sysExec, sysStep, ht, if_true, this]

theorem drain_keep {c : Hub.Id} {es : List (SysEvent δ β)} {s : Sys δ β} (ho : Ordinary es)
    (h : sysExec P Sys.init es = some (.ok s)) (hc : c ∈ s.ws.conns) :
    ∃ es' s', (∀ e ∈ es', With c e) ∧ sysExec P s es' = some (.ok s') ∧ s'.todo = [] ∧
      s'.pending = s.pending ∧ s'.consumed = s.consumed ∧ c ∈ s'.ws.conns := by
  generalize hl : s.todo = l
  induction l generalizing es s with
  | nil => exact ⟨[], s, by simp, rfl, hl, rfl, rfl, hc⟩
  | cons x rest ih =>
    obtain ⟨e1, s1, k1, k2, k3, k4, k5, k6⟩ := one_effect_keep ho h hc hl
    obtain ⟨e2, s2, m1, m2, m3, m4, m5, m6⟩ := ih (ho.with k1) (by rw [sysExec_append h]; exact k2) k6 k3
    exact ⟨e1 ++ e2, s2, with_append k1 m1, by rw [sysExec_append k2]; exact m2, m3, by rw [m4, k4],
      by rw [m5, k5], m6⟩

/-- Everything is finished and the client has read everything. -/
theorem settle {c : Hub.Id} {es : List (SysEvent δ β)} {s : Sys δ β} (ho : Ordinary es)
    (h : sysExec P Sys.init es = some (.ok s)) (hc : c ∈ s.ws.conns) (hw : P.out.websockets = true) :
    ∃ es' s', (∀ e ∈ es', With c e) ∧ sysExec P s es' = some (.ok s') ∧ s'.pending = s.pending ∧
      s'.consumed = s.consumed ∧ c ∈ s'.ws.conns ∧
      s'.ws.got c = (deltasOf P.delta (s.consumed.map Prod.snd)).drop (before c (wsTrace es)) := by
  obtain ⟨e1, s1, a1, a2, a3, a4, a5, a6⟩ := drain_keep ho h hc
  have h1 : sysExec P Sys.init (es ++ e1) = some (.ok s1) := by rw [sysExec_append h, a2]
  obtain ⟨e2, w2, b1, b2, b3, b4⟩ := ws_idle_keep (ho.with a1) h1 a6
  obtain ⟨e3, w3, c1, c2, c3, c4, c5⟩ := read_all (P := P) c { s1 with ws := w2 }
  have hall : sysExec P s (e1 ++ (e2 ++ e3)) = some (.ok { s1 with ws := w3 }) := by
    rw [sysExec_append a2, sysExec_append b2, c2]
  have hwith : ∀ e ∈ e1 ++ (e2 ++ e3), With c e := with_append a1 (with_append b1 c1)
  have hfin : sysExec P Sys.init (es ++ (e1 ++ (e2 ++ e3))) = some (.ok { s1 with ws := w3 }) := by
    rw [sysExec_append h, hall]
  have hreg : Hub.Spec.registered c (wsTrace es) :=
    (Hub.inv_exec ho.wsFresh (sysInv_exec h).ws).reg c hc
  have hcon : c ∈ w3.conns := by rw [c5]; exact b4
  have hgot := C82_caught_up (ho.with hwith) hfin (c := c)
    (by rw [wsTrace_append]; exact List.mem_append_left _ hreg) hw hcon c3 (by rw [c4]; exact b3) a3
  refine ⟨e1 ++ (e2 ++ e3), { s1 with ws := w3 }, hwith, hall, a4, a5, hcon, ?_⟩
  rw [wsTrace_append, before_append hreg] at hgot
  rw [hgot]
  show (deltasOf P.delta (s1.consumed.map Prod.snd)).drop _ = _
  rw [a5]

section
variable {sort : List String → List String} {opts : Opts} {out : Outputs}
  {verbose : Bool} {denv : Signalk.Env Val} {marshal : Nat → List (Signalk.Update Val) → Option β}

/-- **C94.** In every reachable state, if a client is connected and an interface is handing over a message,
then with nothing but the program's own steps and that client reading, the message is taken and the client
receives every delta since it registered, that message's included, without being disconnected; no other
client and no further input is needed, and no panic can intervene. -/
theorem C94_catch_up {es : List (SysEvent Body β)} (ho : Ordinary es) (hg : GenuineInput es)
    {s : Sys Body β} (h : sysExec (shippedProgram sort opts out verbose denv marshal) Sys.init es = some (.ok s))
    (hw : out.websockets = true) {c : Hub.Id} (hc : c ∈ s.ws.conns) {i : Nat} {m : Message Body}
    (hp : s.pending i = some m) :
    ∃ es' s', (∀ e ∈ es', With c e) ∧
      sysExec (shippedProgram sort opts out verbose denv marshal) s es' = some (.ok s') ∧
      s'.consumed = s.consumed ++ [(i, m)] ∧ c ∈ s'.ws.conns ∧
      s'.ws.got c = (deltasOf (shippedProgram sort opts out verbose denv marshal).delta
        ((s.consumed ++ [(i, m)]).map Prod.snd)).drop (before c (wsTrace es)) := by
  obtain ⟨e1, s1, a1, a2, a3, a4, a5, a6⟩ := drain_keep ho h hc
  have h1 : sysExec (shippedProgram sort opts out verbose denv marshal) Sys.init (es ++ e1) = some (.ok s1) := by
    rw [sysExec_append h, a2]
  have hm : m ∈ readBy i es := by rw [← C69_order h i, hp]; simp
  obtain ⟨q1, d, q2⟩ := shipped_ok (sort := sort) (opts := opts) (out := out) (verbose := verbose) (denv := denv)
    (marshal := marshal) (hg i m hm).1 (hg i m hm).2
  have hit : ∃ x, iteration (shippedProgram sort opts out verbose denv marshal).sort
      (shippedProgram sort opts out verbose denv marshal).opts (shippedProgram sort opts out verbose denv marshal).out
      (shippedProgram sort opts out verbose denv marshal).print
      (shippedProgram sort opts out verbose denv marshal).delta s1.stats m = .ok x := by
    unfold iteration
    rw [q1, q2]
    cases shown (shippedProgram sort opts out verbose denv marshal).opts m.header <;> exact ⟨_, rfl⟩
  obtain ⟨⟨st, ef⟩, hit⟩ := hit
  have hstep : sysExec (shippedProgram sort opts out verbose denv marshal) s1 [.take i] =
      some (.ok { s1 with pending := setPending s1.pending i none, stats := st, todo := ef,
                          consumed := s1.consumed ++ [(i, m)] }) := by
    simp only [sysExec, sysStep, a4, hp, a3, hit]
  have hw2 : ∀ e ∈ e1 ++ [.take i], With c e :=
    with_append a1 (by intro e he; rw [List.mem_singleton.mp he]; exact Or.inl trivial)
  have h2 : sysExec (shippedProgram sort opts out verbose denv marshal) Sys.init (es ++ (e1 ++ [.take i])) =
      some (.ok { s1 with pending := setPending s1.pending i none, stats := st, todo := ef,
                          consumed := s1.consumed ++ [(i, m)] }) := by
    rw [sysExec_append h, sysExec_append a2, hstep]
  obtain ⟨e3, s3, c1, c2, c3, c4, c5, c6⟩ := settle (ho.with hw2) h2 a6 hw
  have hreg : Hub.Spec.registered c (wsTrace es) :=
    (Hub.inv_exec ho.wsFresh (sysInv_exec h).ws).reg c hc
  have hx := hstep
  rw [← sysExec_append a2] at hx
  refine ⟨(e1 ++ [.take i]) ++ e3, s3, with_append hw2 c1, ?_, by rw [c4]; simp only [a5], c5, ?_⟩
  · rw [sysExec_append hx]
    exact c2
  · rw [c6, wsTrace_append, before_append hreg]
    simp only [a5]

end

/-! ## A run from the wire to a client -/

/-- Tables with one entry for every name. -/
def runTables : Nmea2k.Env := ⟨fun _ _ => "Magnetic", fun _ => "", fun _ _ _ => ""⟩

/-- Texts print as themselves, numbers do not matter here. -/
def runEnv : Signalk.Env Val := ⟨fun v => match v with | .text t => Signalk.bs t | _ => [], fun _ => false, fun _ => none,
  fun _ => []⟩

/-- The heading of the sample frame, as the NGT-1 reader returns it. -/
def runRaw : RawMessage := ⟨2, 127250, 1, 255, 8, ⟨[1, 2, 3, 16, 5, 6, 7, 8], [28]⟩⟩

/-- Decoded; Go goes through the map backwards. -/
def runMsg : Message Body := ⟨runRaw, 77,
  [(0, .u64 1), (1, .f64 770 (.scale "RES_DEGREES")), (2, .f64 1296 (.scale "RES_DEGREES")),
    (3, .f64 1798 (.scale "RES_DEGREES")), (4, .text "Magnetic")],
  [(4, .text "Magnetic"), (3, .f64 1798 (.scale "RES_DEGREES")), (2, .f64 1296 (.scale "RES_DEGREES")),
    (1, .f64 770 (.scale "RES_DEGREES")), (0, .u64 1)], 5⟩

/-- The paths of the delta and its time. -/
def runMarshal (now : Nat) (u : List (Signalk.Update Val)) : Option (Nat × List Signalk.Str) :=
  some (now, u.flatMap (fun x => x.values.map Prod.fst))

def runProgram : Program Body (Nat × List Signalk.Str) :=
  shippedProgram (List.insertionSort (· ≤ ·)) Opts.default ⟨true, false⟩ true runEnv runMarshal

/-- Client 5 registers, the heading is read, taken, logged, counted and broadcast. -/
def wholeRun : List (SysEvent Body (Nat × List Signalk.Str)) :=
  [.ws (.register 5), .read 0 (some runMsg), .take 0, .act, .statistics [("127250", 1)] [], .st .hub,
    .delta (5, [Signalk.bs "navigation.headingMagnetic"]) [5], .ws .hub, .ws .hub, .ws (.read 5)]

/-- The client has the heading. -/
example : (match sysExec runProgram Sys.init wholeRun with
    | some (.ok s) => s.ws.got 5 == [(5, [Signalk.bs "navigation.headingMagnetic"])] && s.todo.length == 0 &&
        s.ws.conns == [5] && (s.pending 0).isNone
    | _ => false) = true := by decide +kernel

theorem runMsg_parsed : Nmea2k.ParsePacket Nmea2k.Table.pgnList runTables runRaw (.ok (parsedOf runMsg)) :=
  ⟨100, by decide +kernel⟩

theorem run_reads (i : Nat) : readBy i wholeRun = if i = 0 then [runMsg] else [] := by
  by_cases h : 0 = i
  · subst h; rfl
  · have h' : i ≠ 0 := fun e => h e.symm
    simp [wholeRun, readBy, h, h']

/-- Interface 0 is an NGT-1 that receives the sample frame; the others receive nothing. -/
def runSource (i : Nat) : Source := .ngt (if i = 0 then [([], Actisense.sampleContent)] else [])

/-- The hypotheses of C92, C93 and C94: the input is genuine, the interface is an NGT-1 that received the
sample frame, and the schedule is ordinary. -/
theorem run_ok : GenuineInput wholeRun ∧ Ordinary wholeRun ∧
    Feeds wholeRun (fun i => (runSource i).acts (Iface.someParse runTables) (fun _ => []) (fun _ => 0)) ∧
    (∀ i : Nat, (runSource i).Good (fun _ => 0)) ∧
    Hub.Spec.registered 5 (wsTrace wholeRun) ∧ before 5 (wsTrace wholeRun) = 0 := by
  have hperm : runMsg.body.order.Perm runMsg.body.data :=
    (List.reverse_perm runMsg.body.data : (runMsg.body.data.reverse).Perm _)
  refine ⟨?_, ⟨?_, ?_, ?_, ?_⟩, ?_, ?_, by decide, by decide⟩
  · intro i m hm
    rw [run_reads] at hm
    split at hm
    · rw [List.mem_singleton.mp hm]
      exact ⟨Or.inl ⟨runTables, runRaw, runMsg_parsed⟩, hperm⟩
    · cases hm
  · intro a b c h
    have e : wsTrace wholeRun = .register 5 :: [.broadcast (5, [Signalk.bs "navigation.headingMagnetic"]) [5], .hub,
      .hub, .read 5] := rfl
    rw [e] at h
    cases a with
    | nil => simp [Hub.Spec.touched]
    | cons x a =>
      exfalso
      simp only [List.cons_append, List.cons.injEq] at h
      have : (Hub.Event.register c : Hub.Event (Nat × List Signalk.Str)) ∈ a ++ .register c :: b := by simp
      rw [← h.2] at this
      simp at this
  · intro a b c h
    exfalso
    have : (Hub.Event.register c : Hub.Event Counters) ∈ stTrace wholeRun := by rw [h]; simp
    simp [stTrace, wholeRun] at this
  · intro c hc
    simp [wsTrace, wholeRun] at hc
  · intro c hc
    simp [stTrace, wholeRun] at hc
  · intro i
    rw [run_reads]
    by_cases hi : i = 0
    · rw [if_pos hi]
      refine ⟨?_, fun m hm => by rw [List.mem_singleton.mp hm]; exact hperm⟩
      have hp : Iface.someParse runTables runRaw = .ok (parsedOf runMsg) :=
        Nmea2k.ParsePacket_det (Iface.someParse_spec runTables runRaw) runMsg_parsed
      have hs : (Actisense.session (fun _ => 0) Actisense.RState.init
          (([([], Actisense.sampleContent)] : List (List Ev × List Byte)).flatMap
            (fun f => f.1 ++ Actisense.stream (NgtSpec.wire f.2)))).1 = [.msg runRaw] := by decide +kernel
      simp only [runSource, Source.acts, if_pos hi, Iface.actisenseActs, hs, Iface.actisenseLoop, hp]
      exact List.prefix_rfl
    · rw [if_neg hi]
      exact ⟨List.nil_prefix, by simp⟩
  · intro i
    by_cases hi : i = 0
    · simp only [runSource, Source.Good, if_pos hi]
      refine ⟨?_, by decide, ?_⟩
      · intro f hf e he
        rw [List.mem_singleton.mp hf] at he
        cases he
      · intro f hf v hv
        rw [List.mem_singleton.mp hf] at hv
        have : v = Actisense.sampleView := by
          rw [show NgtSpec.accepted Actisense.sampleContent = some Actisense.sampleView from by decide] at hv
          exact (Option.some.inj hv).symm
        subst this
        exact Iface.C90_harmless (by decide)
    · simp only [runSource, Source.Good, if_neg hi]
      exact ⟨by simp, by simp, by simp⟩

end Argo.Main
