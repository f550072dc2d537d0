import Verif.Main.AnyInput
import Verif.Canusb.Noise

set_option autoImplicit false

/-!
# What ends the process (C98)

Composition of C07, C16, C46, C90, C91 and C92 for any number of interfaces that receive anything.
-/

namespace Argo.Main

open Argo
open Argo.NgtSpec (Seen)
open Argo.Nmea2k (Parsed Val)
open Argo.Nmea2k.Table (pgnList)

/-! ## Specification -/

/-- Interface `i` receives something that can end the process: for an NGT-1, a frame whose length field is
wrong in one of the ways of C07, or an acceptable frame with a message the decoder can panic on (exactly: C98_harmless);
for a CANUSB, a line that stops too early (C16), or the frames of a message the decoder can panic on, the last one
received there; for a file, nothing. -/
def Input.Fatal (fp : List Nat) (bus : List (Nat × Ev)) (i : Nat) : Input → Prop
  | .ngt evs => ∃ bs ∈ heard 0 [] evs, ∃ c ∈ NgtSpec.frames bs, Actisense.Crashing c ∨ Actisense.Overrunning c ∨
      ∃ v, NgtSpec.accepted c = some v ∧ ¬ Iface.Harmless v
  | .canusb _ =>
      (∃ l, Canusb.CrashingLine fp l ∧ ∃ bs ∈ heard 0 [] (Canusb.ofPort i bus), Canusb.LineIn bs l.vis) ∨
      ∃ (pre : List (Nat × Slice)) (l : Slice) (v x : MsgView),
        (∀ j t, (j, t) ∈ pre ++ [(i, l)] → ∃ bs ∈ heard 0 [] (Canusb.ofPort j bus), Canusb.LineIn bs t.vis) ∧
        Canusb.parsed l = .frame v ∧
        Canusb.Delivered fp (Canusb.frames ((pre ++ [(i, l)]).map Prod.snd)) v x ∧ ¬ Iface.Harmless x
  | .file _ _ => False

/-! ## Proofs -/

theorem mem_ofPort {α : Type} {i : Nat} {x : α} {l : List (Nat × α)} : x ∈ Canusb.ofPort i l ↔ (i, x) ∈ l := by
  unfold Canusb.ofPort
  constructor
  · intro h
    obtain ⟨y, hy, rfl⟩ := List.mem_map.mp h
    obtain ⟨h1, h2⟩ := List.mem_filter.mp hy
    obtain ⟨j, o⟩ := y
    simp only [beq_iff_eq] at h2
    subst h2; exact h1
  · intro h
    exact List.mem_map.mpr ⟨(i, x), List.mem_filter.mpr ⟨h, by simp⟩, rfl⟩

/-- Where a crash of an NGT-1 reader comes from. -/
theorem heard_crash {segs : List (List Byte)} {o : List Seen} (h : Actisense.Heard segs o) (hc : Seen.crash ∈ o) :
    ∃ bs ∈ segs, ∃ c ∈ NgtSpec.frames bs, Actisense.Crashing c ∨ Actisense.Overrunning c := by
  have key : ∀ {bs o}, NgtSpec.Outcome (NgtSpec.frames bs) o → Seen.crash ∈ o →
      ∃ c ∈ NgtSpec.frames bs, Actisense.Crashing c ∨ Actisense.Overrunning c := by
    intro bs o ho hc
    obtain ⟨c, h1, h2⟩ := Actisense.outcome_crash ho hc
    exact ⟨c, h1, h2.imp (Actisense.crash_iff c).1 (Actisense.overrun_iff c).1⟩
  induction h with
  | last ho => obtain ⟨c, r⟩ := key ho hc; exact ⟨_, by simp, c, r⟩
  | next ho _ _ ih =>
    rcases List.mem_append.mp hc with hc | hc
    · obtain ⟨c, r⟩ := key ho hc; exact ⟨_, by simp, c, r⟩
    · rcases List.mem_cons.mp hc with hc | hc
      · cases hc
      · obtain ⟨bs, hb, r⟩ := ih hc; exact ⟨bs, by simp [hb], r⟩
  | died ho _ => obtain ⟨c, r⟩ := key ho hc; exact ⟨_, by simp, c, r⟩

/-- Every crashing frame crashes the reader. -/
theorem heard_fatal {segs : List (List Byte)} {o : List Seen} (h : Actisense.Heard segs o) {bs : List Byte}
    (hb : bs ∈ segs) {c : List Byte} (hc : c ∈ NgtSpec.frames bs) (hv : Actisense.Crashing c) : Seen.crash ∈ o := by
  have hv' := (Actisense.crash_iff c).2 hv
  induction h with
  | last ho =>
    rw [List.mem_singleton.mp hb] at hc
    exact Actisense.outcome_crash_of ho hc hv'
  | next ho _ _ ih =>
    rcases List.mem_cons.mp hb with rfl | hb
    · exact List.mem_append_left _ (Actisense.outcome_crash_of ho hc hv')
    · exact List.mem_append_right _ (List.mem_cons_of_mem _ (ih hb))
  | died _ hcr => exact hcr

theorem handover_crash {P : RawMessage → GoM Parsed → Prop} {os : List Seen} {as : List Iface.Act}
    (h : Iface.Handover P os as) (hc : Seen.crash ∈ os) : Iface.Act.died ∈ as := by
  induction h with
  | nil => cases hc
  | ioErr _ ih => simp at hc; simp [ih hc]
  | crash => simp
  | msg _ _ _ ih => simp at hc; simp [ih hc]
  | died => simp

/-- An acceptable frame is reported, unless the reader crashes. -/
theorem outcome_accepted {cs : List (List Byte)} {o : List Seen} (h : NgtSpec.Outcome cs o)
    {c : List Byte} (hc : c ∈ cs) {v : MsgView} (hv : NgtSpec.accepted c = some v) :
    Seen.msg v ∈ o ∨ Seen.crash ∈ o := by
  have hv : NgtSpec.verdict c = .accept v := by
    unfold NgtSpec.accepted at hv
    split at hv
    · rename_i w hw; cases hv; exact hw
    · cases hv
  induction h with
  | nil => cases hc
  | accept hv' _ ih =>
    rcases List.mem_cons.mp hc with rfl | hc
    · rw [hv] at hv'; cases hv'; exact Or.inl (by simp)
    · exact (ih hc).imp (List.mem_cons_of_mem _) (List.mem_cons_of_mem _)
  | overrunMsg _ _ _ _ hv' _ _ _ ih =>
    rcases List.mem_cons.mp hc with rfl | hc
    · rw [hv] at hv'; cases hv'
    · exact (ih hc).imp (List.mem_cons_of_mem _) (List.mem_cons_of_mem _)
  | reject hv' _ ih =>
    rcases List.mem_cons.mp hc with rfl | hc
    · rw [hv] at hv'; cases hv'
    · exact ih hc
  | crash _ | overrunCrash _ => exact Or.inr (by simp)

theorem heard_accepted {segs : List (List Byte)} {o : List Seen} (h : Actisense.Heard segs o) {bs : List Byte}
    (hb : bs ∈ segs) {c : List Byte} (hc : c ∈ NgtSpec.frames bs) {v : MsgView} (hv : NgtSpec.accepted c = some v) :
    Seen.msg v ∈ o ∨ Seen.crash ∈ o := by
  induction h with
  | last ho =>
    rw [List.mem_singleton.mp hb] at hc
    exact outcome_accepted ho hc hv
  | next ho _ _ ih =>
    rcases List.mem_cons.mp hb with rfl | hb
    · exact (outcome_accepted ho hc hv).imp (List.mem_append_left _) (List.mem_append_left _)
    · exact (ih hb).imp (fun h => List.mem_append_right _ (List.mem_cons_of_mem _ h))
        (fun h => List.mem_append_right _ (List.mem_cons_of_mem _ h))
  | died _ hcr => exact Or.inr hcr

theorem handover_deadly {env : Nmea2k.Env} {os : List Seen} {as : List Iface.Act}
    (h : Iface.Handover (Nmea2k.ParsePacket pgnList env) os as) {v : MsgView} (hm : Seen.msg v ∈ os)
    (hv : Iface.Deadly v) : Iface.Act.died ∈ as := by
  induction h with
  | nil => cases hm
  | ioErr _ ih =>
    rcases List.mem_cons.mp hm with hm | hm
    · cases hm
    · exact List.mem_cons_of_mem _ (ih hm)
  | crash => simp
  | msg h1 h2 _ ih =>
    rcases List.mem_cons.mp hm with hm | hm
    · cases hm
      obtain ⟨e, he⟩ := (Iface.C98_deadly env v).mp hv _ h1
      cases Nmea2k.ParsePacket_det h2 he
    · exact List.mem_cons_of_mem _ (ih hm)
  | died => simp

/-! ## C98 -/

/-- **C98** (what can end the process): whatever the interfaces receive, an interface ends the process only if
it receives one of the inputs named by `Input.Fatal`. -/
theorem C98_cause {env : Nmea2k.Env} {parse : RawMessage → GoM Parsed}
    (hparse : ∀ m, Nmea2k.ParsePacket pgnList env m (parse m)) (mem : Nat → Nat → List Byte) (g : Nat → Nat)
    (fp : List Nat) (bus : List (Nat × Ev)) (i : Nat) (inp : Input)
    (h : Iface.Act.died ∈ inp.acts parse mem g fp bus i) : inp.Fatal fp bus i := by
  cases inp with
  | ngt evs =>
    rcases Iface.handover_died (Iface.C90_handover hparse g evs) h with hc | ⟨v, hv, hh⟩
    · obtain ⟨bs, hb, c, hc', hk⟩ := heard_crash (Actisense.C11_exact g evs) hc
      exact ⟨bs, hb, c, hc', hk.imp id Or.inl⟩
    · obtain ⟨bs, hb, c, hc, _, hv'⟩ := Actisense.C05_history g evs v hv
      refine ⟨bs, hb, c, hc, ?_⟩
      rcases hv' with hv' | hv'
      · exact Or.inr (Or.inr ⟨v, by rw [NgtSpec.accepted, hv'], hh⟩)
      · exact Or.inr (Or.inl ((Actisense.overrun_iff c).1 hv'))
  | canusb port =>
    have hd := Iface.died_others.mpr h
    rcases Iface.handover_died (Iface.C91_handover hparse (mem i) 0 port _) hd with hc | ⟨x, hx, hh⟩
    · left
      obtain ⟨ob, ho, he⟩ := List.mem_map.mp hc
      cases ob with
      | crash => exact Canusb.C16_stream_partial g fp bus i (mem_ofPort.mp ho)
      | msg _ => cases he
      | ioErr => cases he
    · right
      obtain ⟨ob, ho, he⟩ := List.mem_map.mp hx
      cases ob with
      | crash => cases he
      | ioErr => cases he
      | msg y =>
        simp only [Iface.seen, Seen.msg.injEq] at he
        subst he
        obtain ⟨pre, l, v, k1, k2, k3⟩ := Canusb.C96_origin g fp bus i y (mem_ofPort.mp ho)
        exact ⟨pre, l, v, y, k1, k2, k3, hh⟩
  | file u c =>
    cases c with
    | none => cases h
    | some content =>
      have : ∀ l, ¬ Iface.Played pgnList u l .died := by
        rintro l ⟨t, _, ⟨r, _, hr⟩ | ⟨_, hr⟩⟩ <;> cases hr
      obtain ⟨ls, hls, hcase⟩ := Iface.C89_cases content
      rcases hcase with ⟨last, hlast, rfl⟩ | ⟨l, rest, hlen, hn, hrest, rfl⟩
      · obtain ⟨l, _, hpl⟩ := forall₂_mem (Iface.C89_play (by decide +kernel) u ls last hls hlast) h
        exact this l hpl
      · obtain ⟨l', _, hpl⟩ := forall₂_mem (Iface.C89_long_line (by decide +kernel) u ls l rest hls hlen hn hrest) h
        exact this l' hpl

/-- **C98** (an NGT-1 frame always fatal): a crashing frame, anywhere in what an NGT-1 receives, ends the
process. -/
theorem C98_ngt_fatal {env : Nmea2k.Env} {parse : RawMessage → GoM Parsed}
    (hparse : ∀ m, Nmea2k.ParsePacket pgnList env m (parse m)) (mem : Nat → Nat → List Byte) (g : Nat → Nat)
    (fp : List Nat) (bus : List (Nat × Ev)) (i : Nat) (evs : List Ev) {bs c : List Byte}
    (hb : bs ∈ heard 0 [] evs) (hc : c ∈ NgtSpec.frames bs) (hv : Actisense.Crashing c) :
    Iface.Act.died ∈ (Input.ngt evs).acts parse mem g fp bus i :=
  handover_crash (Iface.C90_handover hparse g evs) (heard_fatal (Actisense.C11_exact g evs) hb hc hv)

/-- **C98** (an NGT-1 message always fatal): an acceptable frame with a deadly message, anywhere in what an NGT-1
receives, ends the process. -/
theorem C98_ngt_deadly {env : Nmea2k.Env} {parse : RawMessage → GoM Parsed}
    (hparse : ∀ m, Nmea2k.ParsePacket pgnList env m (parse m)) (mem : Nat → Nat → List Byte) (g : Nat → Nat)
    (fp : List Nat) (bus : List (Nat × Ev)) (i : Nat) (evs : List Ev) {bs c : List Byte} {v : MsgView}
    (hb : bs ∈ heard 0 [] evs) (hc : c ∈ NgtSpec.frames bs) (ha : NgtSpec.accepted c = some v)
    (hv : Iface.Deadly v) : Iface.Act.died ∈ (Input.ngt evs).acts parse mem g fp bus i := by
  rcases heard_accepted (Actisense.C11_exact g evs) hb hc ha with h | h
  · exact handover_deadly (Iface.C90_handover hparse g evs) h hv
  · exact handover_crash (Iface.C90_handover hparse g evs) h

/-- **C98** (a CANUSB message always fatal): a deadly message that a CANUSB's Read returns ends the process. -/
theorem C98_canusb_deadly {env : Nmea2k.Env} {parse : RawMessage → GoM Parsed}
    (hparse : ∀ m, Nmea2k.ParsePacket pgnList env m (parse m)) (mem : Nat → Nat → List Byte) (g : Nat → Nat)
    (fp : List Nat) (bus : List (Nat × Ev)) (port : Canusb.CanPort) (i : Nat) {v : MsgView}
    (hm : (i, Canusb.Obs.msg v) ∈ Canusb.sessions g fp Canusb.fresh Canusb.noPartials bus) (hv : Iface.Deadly v) :
    Iface.Act.died ∈ (Input.canusb port).acts parse mem g fp bus i :=
  Iface.died_others.mp (handover_deadly (Iface.C91_handover hparse (mem i) 0 port _)
    (List.mem_map.mpr ⟨.msg v, mem_ofPort.mpr hm, rfl⟩) hv)

/-- **C98** (a CANUSB line always fatal): a crashing line, anywhere in what a CANUSB receives, ends the
process, at that interface or at one that dies before. -/
theorem C98_canusb_fatal {env : Nmea2k.Env} {parse : RawMessage → GoM Parsed}
    (hparse : ∀ m, Nmea2k.ParsePacket pgnList env m (parse m)) (mem : Nat → Nat → List Byte) (g : Nat → Nat)
    (fp : List Nat) (bus : List (Nat × Ev)) (ports : Nat → Canusb.CanPort) (i : Nat) {t pre rest : List Byte}
    (ht : Canusb.IsLine t) (hc : Canusb.CrashingLine fp (Canusb.grown g t))
    (h : pre ++ t ++ 13 :: rest ∈ heard 0 [] (Canusb.ofPort i bus)) :
    ∃ j, Iface.Act.died ∈ (Input.canusb (ports j)).acts parse mem g fp bus j := by
  obtain ⟨j, hj⟩ := Canusb.C16_fatal g fp bus i ht hc h
  refine ⟨j, Iface.died_others.mp (handover_crash (Iface.C91_handover hparse (mem j) 0 (ports j) _) ?_)⟩
  exact List.mem_map.mpr ⟨.crash, mem_ofPort.mpr hj, rfl⟩

/-- **C98** (otherwise it runs on): if no interface receives one of these inputs, no interface ends the process
and, in every schedule, neither do the loop and the hubs. -/
theorem C98_runs {β : Type} [DecidableEq β] {sort : List String → List String} {opts : Opts} {out : Outputs}
    {verbose : Bool} {denv : Signalk.Env Val} {marshal : Nat → List (Signalk.Update Val) → Option β}
    {env : Nmea2k.Env} {parse : RawMessage → GoM Parsed}
    (hparse : ∀ m, Nmea2k.ParsePacket pgnList env m (parse m)) (mem : Nat → Nat → List Byte) (g : Nat → Nat)
    (fp : List Nat) (bus : List (Nat × Ev)) (inputs : Nat → Input) (hok : ∀ i, ¬ (inputs i).Fatal fp bus i)
    {es : List (SysEvent Body β)} (ho : Ordinary es)
    (hfeed : Feeds es (fun i => (inputs i).acts parse mem g fp bus i)) :
    (∀ i, Iface.Act.died ∉ (inputs i).acts parse mem g fp bus i) ∧
    ∀ p, sysExec (shippedProgram sort opts out verbose denv marshal) Sys.init es ≠ some (.error p) :=
  ⟨fun i h => hok i (C98_cause hparse mem g fp bus i (inputs i) h), C92_any hparse mem g fp bus inputs ho hfeed⟩

/-- Non-vacuity: the run of `wholeRun` has no fatal input, -/
example (i : Nat) : ¬ (runInput i).Fatal [] [] i := by
  rintro ⟨bs, hb, c, hc, h⟩
  by_cases hi : i = 0
  · subst hi
    have e : heard 0 [] (Actisense.stream (NgtSpec.wire Actisense.sampleContent)) =
        [NgtSpec.wire Actisense.sampleContent] := by decide +kernel
    simp only [if_true, e, List.mem_singleton] at hb
    subst hb
    have e2 : NgtSpec.frames (NgtSpec.wire Actisense.sampleContent) = [Actisense.sampleContent] := by decide +kernel
    rw [e2, List.mem_singleton] at hc
    subst hc
    have ha : NgtSpec.accepted Actisense.sampleContent = some Actisense.sampleView := by decide +kernel
    have hv : NgtSpec.verdict Actisense.sampleContent = .accept Actisense.sampleView := by decide +kernel
    rcases h with h | h | ⟨v, h1, h2⟩
    · have := (Actisense.crash_iff _).2 h; rw [hv] at this; cases this
    · have := (Actisense.overrun_iff _).2 h; rw [hv] at this; cases this
    · rw [ha] at h1
      cases h1
      exact h2 (Iface.C90_harmless (by decide +kernel))
  · simp only [hi, if_false, heard, List.mem_singleton] at hb
    subst hb
    cases hc

/-- and an NGT-1 that receives, after noise and a read error, seven bytes forming a crashing frame has. -/
example : Iface.Act.died ∈ (Input.ngt ([.byte 1, .fail, .byte 7, .empty] ++
      Actisense.stream [0x10, 0x02, 0x93, 0x0B, 0x62, 0x10, 0x03])).acts (Iface.someParse runTables) (fun _ _ => [])
      (fun _ => 0) [] [] 0 :=
  C98_ngt_fatal (Iface.someParse_spec runTables) _ _ _ _ _ _
    (bs := [7, 7, 0x10, 0x02, 0x93, 0x0B, 0x62, 0x10, 0x03]) (c := [0x93, 0x0B, 0x62])
    (by decide +kernel) (by decide +kernel) ((Actisense.crash_iff _).1 (by decide +kernel))

/-- A Simrad AIS message (PGN 130842, message 24) from an NGT-1: an acceptable frame. -/
def simradFrame : List Byte :=
  [0x93, 17, 6, 0x1a, 0xff, 0x01, 0xff, 0x05, 0, 0, 0, 0, 6, 0x41, 0x9f, 24, 0, 0, 0, 0x3a]

/-- It ends the process, wherever it comes. -/
example (env : Nmea2k.Env) (evs : List Ev) {bs : List Byte} (hb : bs ∈ heard 0 [] evs)
    (hc : simradFrame ∈ NgtSpec.frames bs) :
    Iface.Act.died ∈ (Input.ngt evs).acts (Iface.someParse env) (fun _ _ => []) (fun _ => 0) [] [] 0 :=
  C98_ngt_deadly (Iface.someParse_spec env) _ _ _ _ _ _ hb hc
    (v := ⟨6, 130842, 5, 255, 6, [0x41, 0x9f, 24, 0, 0, 0]⟩) (by decide +kernel) (Or.inl (by decide +kernel))

end Argo.Main
