import Verif.Json.Bits
import Verif.Canusb.Noise

set_option autoImplicit false

/-! # C118 for CANUSB adapters: from the lines of the adapters to the JSON of the clients -/

namespace Argo.Json

open Argo Argo.Main
open Argo.Nmea2k (Parsed Val)
open Argo.Nmea2k.Table (pgnList)
open Argo.Nmea2k.Spec (onlyDefinition)
open Argo.Signalk (Value bs)

variable {sort : List String → List String} {opts : Opts} {out : Outputs} {verbose : Bool} {denv : Signalk.Env Val}
  {enc : Enc} {conv : Int → Nat}

/-- Observations without crash and errors are messages. -/
theorem seen_messages (os : List Canusb.Obs) (h1 : Canusb.Obs.crash ∉ os) :
    ∀ as : List Iface.Act, ∀ env : Nmea2k.Env, (∀ v, Canusb.Obs.msg v ∈ os → Iface.Harmless v) →
      Iface.Handover (Nmea2k.ParsePacket pgnList env) (os.map Iface.seen) as →
      ∀ v, Canusb.Obs.msg v ∈ os → ∃ p, Iface.Act.handed p ∈ as ∧ Iface.Decoded env v p := by
  induction os with
  | nil => intro _ _ _ _ v hv; cases hv
  | cons o os ih =>
    intro as env hh h v hv
    have ih' := ih (fun hc => h1 (List.mem_cons_of_mem _ hc))
    cases o with
    | crash => exact absurd List.mem_cons_self h1
    | ioErr =>
      have hv' : Canusb.Obs.msg v ∈ os := by
        rcases List.mem_cons.mp hv with e | e
        · cases e
        · exact e
      simp only [List.map_cons, Iface.seen] at h
      cases h with
      | ioErr h =>
        obtain ⟨p, k1, k2⟩ := ih' _ env (fun w hw => hh w (List.mem_cons_of_mem _ hw)) h v hv'
        exact ⟨p, List.mem_cons_of_mem _ k1, k2⟩
    | msg w =>
      have hw := hh w List.mem_cons_self
      simp only [List.map_cons, Iface.seen] at h
      cases h with
      | msg k1 k2 k3 =>
        rcases List.mem_cons.mp hv with e | e
        · injection e with e
          subst e
          have hp := Signalk.parsed_header k2
          exact ⟨_, List.mem_cons_self, by rw [hp]; exact k1, by rw [hp]; exact k2⟩
        · obtain ⟨p, k1, k2⟩ := ih' _ env (fun w hw => hh w (List.mem_cons_of_mem _ hw)) k3 v e
          exact ⟨p, List.mem_cons_of_mem _ k1, k2⟩
      | died k1 k2 =>
        obtain ⟨ps, e, _⟩ := Iface.handover_harmless (vs := [w]) (env := env)
          (by intro x hx; rw [List.mem_singleton.mp hx]; exact hw) (Iface.Handover.died (os := []) k1 k2)
        cases ps with
        | nil => cases e
        | cons a ps => cases e

theorem handed_of_mem {p : Parsed} {as : List Iface.Act} (h : Iface.Act.handed p ∈ as) : p ∈ Iface.handed as := by
  induction as with
  | nil => cases h
  | cons a as ih =>
    rcases List.mem_cons.mp h with rfl | h'
    · exact List.mem_cons_self
    · have := ih h'
      cases a with
      | handed m => exact List.mem_cons_of_mem _ this
      | _ => exact this

/-- **C118** (CANUSB): any number of CANUSB interfaces that receive anything that does not crash the process (`C16_stream_partial`,
`C16_fatal`: exactly what does): for every message a `Read` of one of them returns, a client connected since the first delta that has kept up has received a JSON
text with the PGN, the source and exactly the values of the bits of the message; unless there are none. -/
theorem C118_canusb (hs : Sane enc) (hl : Local enc) {parse : RawMessage → GoM Parsed}
    (hparse : ∀ m, Nmea2k.ParsePacket pgnList (Nmea2k.shippedEnv conv) m (parse m)) (hprints : Signalk.Prints denv)
    (mem : Nat → Nat → List Byte) (g : Nat → Nat) (fp : List Nat) (bus : List (Nat × Ev)) (inputs : Nat → Input)
    {es : List (SysEvent Body (List Byte))} (hord : Ordinary es)
    (hall : ∀ i, (readBy i es).map parsedOf = Iface.handed ((inputs i).acts parse mem g fp bus i))
    (hperm : ∀ i, ∀ m ∈ readBy i es, m.body.order.Perm m.body.data) {s : Sys Body (List Byte)}
    (h : sysExec (shippedProgram sort opts out verbose denv (marshal enc)) Sys.init es = some (.ok s))
    (hp : ∀ i, s.pending i = none) (ht : s.todo = []) (hpc : s.ws.pc = .idle) (hw : out.websockets = true)
    {c : Hub.Id} (hc : Hub.Spec.registered c (wsTrace es)) (h0 : before c (wsTrace es) = 0)
    (hin : c ∈ s.ws.conns) (hbuf : (s.ws.chan c).buf = []) {n : Nat} {port : Canusb.CanPort}
    (hn : inputs n = .canusb port)
    (hnc : (n, Canusb.Obs.crash) ∉ Canusb.sessions g fp Canusb.fresh Canusb.noPartials bus)
    (hh : ∀ v, (n, Canusb.Obs.msg v) ∈ Canusb.sessions g fp Canusb.fresh Canusb.noPartials bus → Iface.Harmless v)
    {v : MsgView} (hv : (n, Canusb.Obs.msg v) ∈ Canusb.sessions g fp Canusb.fresh Canusb.noPartials bus)
    (hample : Ample v) :
    ∃ values, ValuesOfBits denv (Nmea2k.shippedEnv conv) v values ∧
      (values ≠ [] → ∃ now, ∃ b ∈ s.ws.got c, ∃ j, DeltaJson enc now v.pgn v.source values j ∧
        ∀ j', Reads b j' ↔ j' = j) := by
  have hmem : ∀ o, o ∈ Canusb.ofPort n (Canusb.sessions g fp Canusb.fresh Canusb.noPartials bus) ↔
      (n, o) ∈ Canusb.sessions g fp Canusb.fresh Canusb.noPartials bus := by
    intro o
    simp only [Canusb.ofPort, List.mem_map, List.mem_filter, beq_iff_eq, Prod.exists]
    constructor
    · rintro ⟨a, b, ⟨h1, h2⟩, h3⟩; rw [← h2, ← h3]; exact h1
    · intro h; exact ⟨n, o, ⟨h, rfl⟩, rfl⟩
  obtain ⟨p, h1, h2⟩ := seen_messages _ (fun hcr => hnc ((hmem _).mp hcr)) _ (Nmea2k.shippedEnv conv) (fun w hw => hh w ((hmem _).mp hw))
    (Iface.C91_handover hparse (mem n) 0 port
      (Canusb.ofPort n (Canusb.sessions g fp Canusb.fresh Canusb.noPartials bus))) v ((hmem _).mpr hv)
  refine C118_complete hs hl hparse hprints mem g fp bus inputs hord hall hperm h hp ht hpc hw hc h0 hin hbuf (n := n)
    (p := p) ?_ h2 hample
  rw [hn]
  exact handed_of_mem (List.mem_filter.mp h1).1

/-- Lines that do not crash are answered. -/
theorem receive_answers (fp : List Nat) (ls : List Slice) (h : ∀ l ∈ ls, ¬ Canusb.CrashingLine fp l) :
    ∀ m, ∃ outs m', Canusb.receive fp m ls = .ok (outs, m') ∧ outs.length = ls.length := by
  induction ls with
  | nil => intro m; exact ⟨[], m, rfl, rfl⟩
  | cons l ls ih =>
    intro m
    have hl := h l List.mem_cons_self
    rw [← Canusb.crashing_iff fp m l] at hl
    cases hf : Canusb.frameReceived fp m l with
    | error e => exact absurd ⟨e, hf⟩ hl
    | ok r =>
      obtain ⟨outs, m', k, kl⟩ := ih (fun x hx => h x (List.mem_cons_of_mem _ hx)) r.2
      exact ⟨r.1.map Canusb.CanFrame.out :: outs, m', by simp only [Canusb.receive, hf, bind, Except.bind, k, pure, Except.pure],
        by simp [kl]⟩

theorem mem_zip_snd {α γ : Type} {q : α → Bool} {as : List α} {bs : List γ} {b : γ}
    (h : b ∈ ((as.zip bs).filter fun x => q x.1).map Prod.snd) : b ∈ bs := by
  obtain ⟨x, hx, rfl⟩ := List.mem_map.mp h
  exact (List.of_mem_zip (List.mem_filter.mp hx).1).2

/-- **C118** (CANUSB, fast packets): any number of CANUSB interfaces that receive lines, none of them crashing, without
common streams, interleaved in any way.  A node on the bus of one of them sends a fast packet as NMEA 2000 has it
(header, size and 6 bytes in the first frame, header and 7 bytes in the later ones, the last one padded), with
anything between its frames but frames of the same PGN, source and group (modulo 4).  Then a client connected since
the first delta that has kept up has received a JSON text with the PGN, the source and exactly the values of the bits
of the payload and its padding; unless there are none. -/
theorem C118_fast (hs : Sane enc) (hlo : Local enc) {parse : RawMessage → GoM Parsed}
    (hparse : ∀ m, Nmea2k.ParsePacket pgnList (Nmea2k.shippedEnv conv) m (parse m)) (hprints : Signalk.Prints denv)
    (mem : Nat → Nat → List Byte) (g : Nat → Nat) (fp : List Nat) (bus : List (Nat × Ev)) (inputs : Nat → Input)
    {es : List (SysEvent Body (List Byte))} (hord : Ordinary es)
    (hall : ∀ i, (readBy i es).map parsedOf = Iface.handed ((inputs i).acts parse mem g fp bus i))
    (hperm : ∀ i, ∀ m ∈ readBy i es, m.body.order.Perm m.body.data) {s : Sys Body (List Byte)}
    (h : sysExec (shippedProgram sort opts out verbose denv (marshal enc)) Sys.init es = some (.ok s))
    (hp : ∀ i, s.pending i = none) (ht : s.todo = []) (hpc : s.ws.pc = .idle) (hw : out.websockets = true)
    {c : Hub.Id} (hc : Hub.Spec.registered c (wsTrace es)) (h0 : before c (wsTrace es) = 0)
    (hin : c ∈ s.ws.conns) (hbuf : (s.ws.chan c).buf = [])
    {lines : Nat → List (List Byte)} (hcarry : Canusb.Carry bus lines) (hline : ∀ i, ∀ l ∈ lines i, Canusb.IsLine l)
    (hnc : ∀ i, ∀ l ∈ lines i, ¬ Canusb.CrashingLine fp (Canusb.grown g l))
    (hsep : Canusb.Separate fp fun i => (lines i).map (Canusb.grown g))
    {n : Nat} {port : Canusb.CanPort} (hn : inputs n = .canusb port)
    (hh : ∀ v, (n, Canusb.Obs.msg v) ∈ Canusb.sessions g fp Canusb.fresh Canusb.noPartials bus → Iface.Harmless v)
    {pre mid post : List (List Byte)} (hsplit : lines n = pre ++ mid ++ post)
    {hdr : MsgView} {group : Nat} {payload pad : List Byte} (hlen : payload.length ≤ 223)
    (hfast : Canusb.isFastPacket fp hdr.pgn = true) (hpgn : hdr.pgn < 2 ^ 18)
    (hpk : Canusb.Parses
      ((mid.map (Canusb.grown g)).filter fun l => Canusb.streamOf fp l = some (hdr.pgn, hdr.source, group % 4))
      ((CanSpec.padLast pad (CanSpec.fastFields 7 group payload)).map (Canusb.withField hdr)))
    (hample : Ample { hdr with data := payload ++ pad }) :
    ∃ values, ValuesOfBits denv (Nmea2k.shippedEnv conv)
        { hdr with length := UInt8.ofNat payload.length, data := payload ++ pad } values ∧
      (values ≠ [] → ∃ now, ∃ b ∈ s.ws.got c, ∃ j, DeltaJson enc now hdr.pgn hdr.source values j ∧
        ∀ j', Reads b j' ↔ j' = j) := by
  have hrec : ∀ i, ∃ outs m', Canusb.receive fp Canusb.noPartials ((lines i).map (Canusb.grown g)) = .ok (outs, m') := by
    intro i
    obtain ⟨o, m', k, _⟩ := receive_answers fp ((lines i).map (Canusb.grown g)) (by
      intro l hl
      obtain ⟨l', hl', rfl⟩ := List.mem_map.mp hl
      exact hnc i l' hl') Canusb.noPartials
    exact ⟨o, m', k⟩
  obtain ⟨outs, houts⟩ := Classical.skolem.mp hrec
  have hobs : ∀ i, Canusb.ofPort i (Canusb.sessions g fp Canusb.fresh Canusb.noPartials bus) =
      ((outs i).filterMap id).map Canusb.Obs.msg := fun i =>
    Canusb.C96_lines_partial g fp bus lines hcarry hline hsep outs houts i
  have hmem : ∀ o, o ∈ Canusb.ofPort n (Canusb.sessions g fp Canusb.fresh Canusb.noPartials bus) ↔
      (n, o) ∈ Canusb.sessions g fp Canusb.fresh Canusb.noPartials bus := by
    intro o
    simp only [Canusb.ofPort, List.mem_map, List.mem_filter, beq_iff_eq, Prod.exists]
    constructor
    · rintro ⟨a, b, ⟨h1, h2⟩, h3⟩; rw [← h2, ← h3]; exact h1
    · intro h; exact ⟨n, o, ⟨h, rfl⟩, rfl⟩
  have hv : (n, Canusb.Obs.msg { hdr with length := UInt8.ofNat payload.length, data := payload ++ pad }) ∈
      Canusb.sessions g fp Canusb.fresh Canusb.noPartials bus := by
    rw [← hmem, hobs n]
    refine List.mem_map_of_mem ?_
    obtain ⟨m', hr⟩ := houts n
    refine List.mem_filterMap.mpr ⟨some _, ?_, rfl⟩
    rw [hsplit, List.map_append, List.map_append] at hr
    rw [Canusb.receive_append] at hr
    obtain ⟨o1, m1, e1, _⟩ := receive_answers fp (pre.map (Canusb.grown g) ++ mid.map (Canusb.grown g)) (by
      intro l hl
      rw [← List.map_append] at hl
      obtain ⟨l', hl', rfl⟩ := List.mem_map.mp hl
      exact hnc n l' (by rw [hsplit]; exact List.mem_append_left _ hl')) Canusb.noPartials
    obtain ⟨o2, m2, e2, _⟩ := receive_answers fp (pre.map (Canusb.grown g)) (by
      intro l hl
      obtain ⟨l', hl', rfl⟩ := List.mem_map.mp hl
      exact hnc n l' (by rw [hsplit]; exact List.mem_append_left _ (List.mem_append_left _ hl'))) Canusb.noPartials
    obtain ⟨o3, m3, e3, l3⟩ := receive_answers fp (mid.map (Canusb.grown g)) (by
      intro l hl
      obtain ⟨l', hl', rfl⟩ := List.mem_map.mp hl
      exact hnc n l' (by rw [hsplit]; exact List.mem_append_left _ (List.mem_append_right _ hl'))) m2
    obtain ⟨o4, m4, e4, _⟩ := receive_answers fp (post.map (Canusb.grown g)) (by
      intro l hl
      obtain ⟨l', hl', rfl⟩ := List.mem_map.mp hl
      exact hnc n l' (by rw [hsplit]; exact List.mem_append_right _ hl')) m1
    have e1' := e1
    rw [Canusb.receive_append] at e1'
    simp only [e2, e3, bind, Except.bind, pure, Except.pure, Except.ok.injEq, Prod.mk.injEq] at e1'
    simp only [e1, e4, bind, Except.bind, pure, Except.pure, Except.ok.injEq, Prod.mk.injEq] at hr
    obtain ⟨m5, e5, _⟩ := Canusb.C23_isolation fp hdr.pgn hdr.source (group % 4) hpgn (mid.map (Canusb.grown g)) m2 m2 o3 m3
      rfl e3
    have hst := Canusb.C22_standard fp m2 hdr group payload pad _ hlen hfast hpk
    rw [hst] at e5
    simp only [Except.ok.injEq, Prod.mk.injEq] at e5
    have : some { hdr with length := UInt8.ofNat payload.length, data := payload ++ pad } ∈ o3 := by
      refine mem_zip_snd (as := mid.map (Canusb.grown g))
        (q := fun l => Canusb.streamOf fp l = some (hdr.pgn, hdr.source, group % 4)) ?_
      rw [← e5.1]
      simp
    rw [← hr.1, ← e1'.1]
    exact List.mem_append_left _ (List.mem_append_right _ this)
  exact C118_canusb hs hlo hparse hprints mem g fp bus inputs hord hall hperm h hp ht hpc hw hc h0 hin hbuf hn
    (by
      intro hcr
      rw [← hmem, hobs n] at hcr
      obtain ⟨_, _, e⟩ := List.mem_map.mp hcr
      cases e) hh hv hample

/-! ## A run -/

/-- The AC input status as a fast packet of six frames from station 7, the last one padded; between them the first frame
of a packet from station 9. -/
def acFrames : List (List Byte) :=
  (CanSpec.padLast [255, 255, 255] (CanSpec.fastFields 7 1 acData)).map fun d => (Canusb.line 0x19 0xF2 0x0F 7 d).vis

def otherFrame : List Byte := (Canusb.line 0x19 0xF2 0x0F 9 [0x20, 38, 1, 2, 3, 4, 5, 6]).vis

/-- The lines of adapter 0, and those of adapter 1. -/
def acLines (i : Nat) : List (List Byte) :=
  if i = 0 then acFrames.take 2 ++ otherFrame :: acFrames.drop 2 else if i = 1 then [otherFrame1] else []
where
  otherFrame1 : List Byte := (Canusb.line 0x19 0xF2 0x0F 11 [0x20, 38, 1, 2, 3, 4, 5, 6]).vis

/-- As they arrive. -/
def acBus : List (Nat × Ev) :=
  Canusb.sent ((acFrames.take 2).map (fun l => (0, l)) ++ (1, acLines.otherFrame1) :: (0, otherFrame) ::
    (acFrames.drop 2).map (fun l => (0, l)))

def fastView : MsgView :=
  { priority := 6, pgn := 127503, source := 7, destination := 255, length := 38, data := acData ++ [255, 255, 255] }

def fastRaw : RawMessage := ⟨6, 127503, 7, 255, 38, ⟨acData ++ [255, 255, 255], []⟩⟩

@[irreducible] def fastValues : Nmea2k.DataMap :=
  match Nmea2k.parsePacketN pgnList acTables fastRaw 60 with
  | some (.ok p) => p.data
  | _ => []

def fastMsg : Message Body := ⟨fastRaw, 89, fastValues, fastValues.reverse, 5⟩

theorem fastMsg_perm : fastMsg.body.order.Perm fastMsg.body.data := by
  unfold fastMsg
  exact List.reverse_perm fastValues

theorem fastMsg_parsed : Nmea2k.ParsePacket pgnList acTables fastRaw (.ok (parsedOf fastMsg)) := ⟨60, by decide +kernel⟩

def fastPort : Canusb.CanPort := { port := ⟨[], fun _ => (0, none)⟩, a := 35, isOpen := true, group := 0 }

def fastInput (_ : Nat) : Input := .canusb fastPort

def fastJson : List Byte :=
  match acProgram.delta fastMsg with
  | .ok (some b) => b
  | _ => []

def fastRun : List (SysEvent Body (List Byte)) :=
  [.ws (.register 5), .read 0 (some fastMsg), .take 0, .act, .statistics [("127503", 1)] [], .st .hub,
    .delta fastJson [5], .ws .hub, .ws .hub, .ws (.read 5)]

theorem fastRun_reads (i : Nat) : readBy i fastRun = if i = 0 then [fastMsg] else [] := by
  by_cases h : 0 = i
  · subst h; rfl
  · have h' : i ≠ 0 := fun e => h e.symm
    simp [fastRun, readBy, h, h']

theorem fast_sessions : Canusb.sessions (fun _ => 0) [127503] Canusb.fresh Canusb.noPartials acBus =
    [(0, .msg fastView)] := by decide +kernel

theorem fastRun_all : ∀ i, (readBy i fastRun).map parsedOf =
    Iface.handed ((fastInput i).acts (Iface.someParse acTables) (fun _ _ => []) (fun _ => 0) [127503] acBus i) := by
  intro i
  rw [fastRun_reads]
  have hp : Iface.someParse acTables fastRaw = .ok (parsedOf fastMsg) :=
    Nmea2k.ParsePacket_det (Iface.someParse_spec acTables fastRaw) fastMsg_parsed
  by_cases hi : i = 0
  · subst hi
    have hr : Iface.rawOf fastView [] = fastRaw := rfl
    simp only [fastInput, Input.acts, fast_sessions, Canusb.ofPort]
    simp only [List.filter_cons, List.filter_nil, beq_self_eq_true, if_true, List.map_cons, List.map_nil,
      Iface.canusbLoop, hr, hp, Canusb.conflictStep]
    rfl
  · rw [if_neg hi]
    have hne : ((0 : Nat) == i) = false := by
      rw [beq_eq_false_iff_ne]; exact fun e => hi e.symm
    simp only [fastInput, Input.acts, fast_sessions, Canusb.ofPort, List.filter_cons, hne]
    rfl

theorem fastRun_ordinary : Ordinary fastRun := by
  refine ⟨?_, ?_, ?_, ?_⟩
  · intro a b c h
    have e : wsTrace fastRun = .register 5 :: [.broadcast fastJson [5], .hub, .hub, .read 5] := rfl
    rw [e] at h
    cases a with
    | nil => simp [Hub.Spec.touched]
    | cons x a =>
      exfalso
      simp only [List.cons_append, List.cons.injEq] at h
      have : (Hub.Event.register c : Hub.Event (List Byte)) ∈ a ++ .register c :: b := by simp
      rw [← h.2] at this
      simp at this
  · intro a b c h
    exfalso
    have : (Hub.Event.register c : Hub.Event Counters) ∈ stTrace fastRun := by rw [h]; simp
    simp [stTrace, fastRun] at this
  · intro c hc
    simp [wsTrace, fastRun] at hc
  · intro c hc
    simp [stTrace, fastRun] at hc

/-- A crashing line, by evaluation. -/
def crashB (fp : List Nat) (l : Slice) : Bool :=
  match Canusb.parsed l with
  | .panic => true
  | .error => false
  | .frame v => Canusb.isFastPacket fp v.pgn && (match v.data with
    | [] => true
    | [h] => decide (h.toNat % 32 = 0)
    | _ => false)

theorem crashB_spec {fp : List Nat} {l : Slice} (h : crashB fp l = false) : ¬ Canusb.CrashingLine fp l := by
  rintro (hp | ⟨v, hv, hf, hd⟩)
  · simp [crashB, hp] at h
  · rcases hd with hd | ⟨b, hd, hb⟩ <;> simp [crashB, hv, hf, hd] at h
    omega

theorem parses_of {ls : List Slice} {vs : List MsgView} (h : ls.map Canusb.parsed = vs.map .frame) : Canusb.Parses ls vs := by
  induction ls generalizing vs with
  | nil =>
    cases vs with
    | nil => trivial
    | cons v vs => cases h
  | cons l ls ih =>
    cases vs with
    | nil => cases h
    | cons v vs =>
      rw [List.map_cons, List.map_cons, List.cons.injEq] at h
      exact ⟨h.1, ih h.2⟩

/-- The run meets the hypotheses of `C118_fast` (and with them those of `C118_canusb`): the quality of the second line
reaches client 5 as JSON. -/
example : ∃ s, sysExec acProgram Sys.init fastRun = some (.ok s) ∧
    ∃ values, ValuesOfBits Signalk.refEnv acTables fastView values ∧ (values ≠ [] →
      ∃ now, ∃ b ∈ s.ws.got 5, ∃ j, DeltaJson exampleEnc now 127503 7 values j ∧ ∀ j', Reads b j' ↔ j' = j) := by
  have hx : (match sysExec acProgram Sys.init fastRun with
    | some (.ok s) => (s.pending 0).isNone && decide (s.todo.length = 0) &&
        (match s.ws.pc with | .idle => true | _ => false) &&
        decide (5 ∈ s.ws.conns) && decide ((s.ws.chan 5).buf = [])
    | _ => false) = true := by decide +kernel
  cases hs : sysExec acProgram Sys.init fastRun with
  | none => rw [hs] at hx; cases hx
  | some r =>
    cases r with
    | error e => rw [hs] at hx; cases hx
    | ok s =>
      rw [hs] at hx
      simp only [Bool.and_eq_true, decide_eq_true_eq, List.length_eq_zero_iff] at hx
      obtain ⟨⟨⟨⟨hp0, ht⟩, hpc⟩, hin⟩, hbuf⟩ := hx
      have hpc' : s.ws.pc = .idle := by revert hpc; cases s.ws.pc <;> simp
      have hperm : ∀ i, ∀ m ∈ readBy i fastRun, m.body.order.Perm m.body.data := by
        intro i m hm
        rw [fastRun_reads] at hm
        split at hm
        · rw [List.mem_singleton.mp hm]
          exact fastMsg_perm
        · cases hm
      have hp : ∀ i, s.pending i = none := by
        intro i
        by_cases hi : i = 0
        · subst hi; exact Option.isNone_iff_eq_none.mp hp0
        · have := C69_order hs i
          rw [fastRun_reads, if_neg hi] at this
          have := (List.append_eq_nil_iff.mp this).2
          revert this; cases s.pending i <;> simp
      have hst : Ample fastView := ⟨by decide, by decide⟩
      have hother : ∀ i, i ≠ 0 → i ≠ 1 → acLines i = [] := by intro i h h'; simp [acLines, h, h']
      have hboth : ∀ i, ∀ l ∈ acLines i, l ∈ acLines 0 ∨ l ∈ acLines 1 := by
        intro i l hl
        by_cases h0 : i = 0
        · subst h0; exact Or.inl hl
        by_cases h1 : i = 1
        · subst h1; exact Or.inr hl
        rw [hother i h0 h1] at hl; cases hl
      refine ⟨s, rfl, ?_⟩
      refine C118_fast (conv := fun _ => 0) example_sane example_local (Iface.someParse_spec acTables)
        refEnv_prints (fun _ _ => []) (fun _ => 0) [127503] acBus fastInput fastRun_ordinary fastRun_all hperm hs hp ht
        hpc' rfl (c := 5) (by simp [fastRun, wsTrace, Hub.Spec.registered]) (by rfl) hin hbuf
        (lines := acLines) ?_ ?_ ?_ ?_ (n := 0) (port := fastPort) rfl ?_ (pre := []) (mid := acLines 0) (post := []) (by simp)
        (hdr := fastView) (group := 1) (payload := acData) (pad := [255, 255, 255]) (by decide) (by decide) (by decide)
        ?_ hst
      · intro i
        by_cases h0 : i = 0
        · subst h0; decide +kernel
        by_cases h1 : i = 1
        · subst h1; decide +kernel
        rw [hother i h0 h1]
        have hports : ∀ x ∈ acBus, x.1 = 0 ∨ x.1 = 1 := by decide +kernel
        have : acBus.filter (fun x => x.1 == i) = [] := by
          rw [List.filter_eq_nil_iff]
          intro x hx e
          have e := beq_iff_eq.mp e
          rcases hports x hx with t | t <;> omega
        simp [Canusb.ofPort, this]
      · intro i l hl
        have hb : ∀ l, l ∈ acLines 0 ∨ l ∈ acLines 1 → l.head? = some 84 ∧ ∀ b ∈ l.tail, Canusb.isStart b = false ∧ b ≠ 13 := by
          intro l hl
          rcases hl with hl | hl
          · revert l; decide +kernel
          · revert l; decide +kernel
        obtain ⟨h1, h2⟩ := hb l (hboth i l hl)
        cases l with
        | nil => cases h1
        | cons c t =>
          simp only [List.head?_cons, Option.some.injEq] at h1
          exact Canusb.isLine_of ⟨c, t, rfl, by rw [h1]; decide, h2⟩
      · intro i l hl
        refine crashB_spec ?_
        rcases hboth i l hl with hl | hl
        · exact (show ∀ l ∈ acLines 0, crashB [127503] (Canusb.grown (fun _ => 0) l) = false by decide +kernel) l hl
        · exact (show ∀ l ∈ acLines 1, crashB [127503] (Canusb.grown (fun _ => 0) l) = false by decide +kernel) l hl
      · intro i j hij l hl l' hl' k hk hk'
        have key : ∀ i, ∀ l ∈ (acLines i).map (Canusb.grown fun _ => 0), ∀ k, Canusb.streamOf [127503] l = some k →
            (i = 0 ∧ (k = (127503, 7, 1) ∨ k = (127503, 9, 1))) ∨ (i = 1 ∧ k = (127503, 11, 1)) := by
          intro i l hl k hk
          by_cases h0 : i = 0
          · subst h0
            have : ∀ l ∈ (acLines 0).map (Canusb.grown fun _ => 0), Canusb.streamOf [127503] l = some (127503, 7, 1) ∨
                Canusb.streamOf [127503] l = some (127503, 9, 1) := by decide +kernel
            rcases this l hl with t | t <;> rw [t] at hk <;> simp [← Option.some.inj hk]
          by_cases h1 : i = 1
          · subst h1
            have : ∀ l ∈ (acLines 1).map (Canusb.grown fun _ => 0), Canusb.streamOf [127503] l = some (127503, 11, 1) := by
              decide +kernel
            rw [this l hl] at hk
            exact Or.inr ⟨rfl, (Option.some.inj hk).symm⟩
          rw [hother i h0 h1] at hl
          cases hl
        have ka := key i l hl k hk
        have kb := key j l' hl' k hk'
        rcases ka with ⟨a, b | b⟩ | ⟨a, b⟩ <;> rcases kb with ⟨c, d | d⟩ | ⟨c, d⟩ <;> first
          | (exact hij (a.trans c.symm))
          | (rw [b] at d; exact absurd d (by decide))
      · intro v hv
        rw [fast_sessions] at hv
        have e := List.mem_singleton.mp hv
        simp only [Prod.mk.injEq, Canusb.Obs.msg.injEq, true_and] at e
        subst e
        exact Iface.C90_harmless (by decide)
      · exact parses_of (by decide +kernel)

end Argo.Json
