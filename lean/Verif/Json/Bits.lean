import Verif.Json.Delta
import Verif.Main.Entries

set_option autoImplicit false

/-! # C118: from the bits on the bus to the JSON of the clients -/

namespace Argo.Json

open Argo Argo.Main
open Argo.Nmea2k (Parsed Val)
open Argo.Nmea2k.Table (pgnList)
open Argo.Nmea2k.Spec (onlyDefinition)
open Argo.Signalk (Value bs)

variable {sort : List String → List String} {opts : Opts} {out : Outputs} {verbose : Bool} {denv : Signalk.Env Val}
  {enc : Enc} {conv : Int → Nat}

/-- The values of a delta made of a message with these bits: those of the entries the message reaches, each under the
path the mapping file has for it. -/
def ValuesOfBits (denv : Signalk.Env Val) (env : Nmea2k.Env) (v : MsgView) (values : List (Signalk.Str × Value Val)) : Prop :=
  ∀ path val, (path, Value.plain val) ∈ values ↔ ∃ i d k, onlyDefinition pgnList v.pgn i d ∧
    EntryOnWire env v d k = some val ∧ EntryNamed denv env v d k path

/-- **C118** (nothing is made up): whatever the interfaces receive, everything a client receives, at any moment of any
schedule, is a JSON text with the PGN and the source of a message made of something an interface received; if that was
decoded from the bus (NGT-1 or CANUSB), with exactly the values of its bits. -/
theorem C118_client (hs : Sane enc) {parse : RawMessage → GoM Parsed}
    (hparse : ∀ m, Nmea2k.ParsePacket pgnList (Nmea2k.shippedEnv conv) m (parse m)) (hprints : Signalk.Prints denv)
    (mem : Nat → Nat → List Byte) (g : Nat → Nat) (fp : List Nat) (bus : List (Nat × Ev)) (inputs : Nat → Input)
    {es : List (SysEvent Body (List Byte))} (ho : Ordinary es)
    (hfeed : Feeds es (fun i => (inputs i).acts parse mem g fp bus i)) {s : Sys Body (List Byte)}
    (h : sysExec (shippedProgram sort opts out verbose denv (marshal enc)) Sys.init es = some (.ok s))
    {c : Hub.Id} (hc : Hub.Spec.registered c (wsTrace es)) {b : List Byte} (hb : b ∈ s.ws.got c) :
    ∃ i p values now j, (inputs i).Made (Nmea2k.shippedEnv conv) fp bus i p ∧ values ≠ [] ∧
      DeltaJson enc now p.header.pgn p.header.source values j ∧ (∀ j', Reads b j' ↔ j' = j) ∧
      ∀ v, Iface.Decoded (Nmea2k.shippedEnv conv) v p → Ample v →
        ValuesOfBits denv (Nmea2k.shippedEnv conv) v values := by
  obtain ⟨i, p, values, now, j, h1, h2, h3, h4, h5⟩ := C104_client hs hparse mem g fp bus inputs ho hfeed h hc hb
  exact ⟨i, p, values, now, j, h1, h3, h4, h5, fun v hdec hample => C118_field hprints hdec hample h2⟩

/-- **C118** (nothing is lost): when the interfaces have handed over all they make of what they received, and a client
connected since the first delta has kept up, then for every message decoded from the bus it has received a JSON text
with the PGN, the source and exactly the values of its bits; unless there are none. -/
theorem C118_complete (hs : Sane enc) (hl : Local enc) {parse : RawMessage → GoM Parsed}
    (hparse : ∀ m, Nmea2k.ParsePacket pgnList (Nmea2k.shippedEnv conv) m (parse m)) (hprints : Signalk.Prints denv)
    (mem : Nat → Nat → List Byte) (g : Nat → Nat) (fp : List Nat) (bus : List (Nat × Ev)) (inputs : Nat → Input)
    {es : List (SysEvent Body (List Byte))} (hord : Ordinary es)
    (hall : ∀ i, (readBy i es).map parsedOf = Iface.handed ((inputs i).acts parse mem g fp bus i))
    (hperm : ∀ i, ∀ m ∈ readBy i es, m.body.order.Perm m.body.data) {s : Sys Body (List Byte)}
    (h : sysExec (shippedProgram sort opts out verbose denv (marshal enc)) Sys.init es = some (.ok s))
    (hp : ∀ i, s.pending i = none) (ht : s.todo = []) (hpc : s.ws.pc = .idle) (hw : out.websockets = true)
    {c : Hub.Id} (hc : Hub.Spec.registered c (wsTrace es)) (h0 : before c (wsTrace es) = 0)
    (hin : c ∈ s.ws.conns) (hbuf : (s.ws.chan c).buf = []) {n : Nat} {p : Parsed} {v : MsgView}
    (hpm : p ∈ Iface.handed ((inputs n).acts parse mem g fp bus n)) (hdec : Iface.Decoded (Nmea2k.shippedEnv conv) v p)
    (hample : Ample v) :
    ∃ values, ValuesOfBits denv (Nmea2k.shippedEnv conv) v values ∧
      (values ≠ [] → ∃ now, ∃ b ∈ s.ws.got c, ∃ j, DeltaJson enc now v.pgn v.source values j ∧
        ∀ j', Reads b j' ↔ j' = j) := by
  obtain ⟨values, h1, h2⟩ := C118_received hparse hprints mem g fp bus inputs hord hall hperm h hp ht hpc hw hc h0 hin
    hbuf hpm hdec hample (fun values now hr hm => by
      obtain ⟨b, hb⟩ := C104_total hl hdec.2 hr now v.pgn v.source
      rw [hb] at hm; cases hm)
  refine ⟨values, h1, fun hne => ?_⟩
  obtain ⟨now, b, hb, hm⟩ := h2 hne
  obtain ⟨j, h3, h4⟩ := C104_delta hs hm
  exact ⟨now, b, hb, j, h3, h4⟩

/-- **C118** (NGT-1): the same from the bytes on the wire: for every acceptable frame. -/
theorem C118_ngt (hs : Sane enc) (hl : Local enc) {parse : RawMessage → GoM Parsed}
    (hparse : ∀ m, Nmea2k.ParsePacket pgnList (Nmea2k.shippedEnv conv) m (parse m)) (hprints : Signalk.Prints denv)
    (mem : Nat → Nat → List Byte) (g : Nat → Nat) (fp : List Nat) (bus : List (Nat × Ev)) (inputs : Nat → Input)
    {es : List (SysEvent Body (List Byte))} (hord : Ordinary es)
    (hall : ∀ i, (readBy i es).map parsedOf = Iface.handed ((inputs i).acts parse mem g fp bus i))
    (hperm : ∀ i, ∀ m ∈ readBy i es, m.body.order.Perm m.body.data) {s : Sys Body (List Byte)}
    (h : sysExec (shippedProgram sort opts out verbose denv (marshal enc)) Sys.init es = some (.ok s))
    (hp : ∀ i, s.pending i = none) (ht : s.todo = []) (hpc : s.ws.pc = .idle) (hw : out.websockets = true)
    {c : Hub.Id} (hc : Hub.Spec.registered c (wsTrace es)) (h0 : before c (wsTrace es) = 0)
    (hin : c ∈ s.ws.conns) (hbuf : (s.ws.chan c).buf = []) {n : Nat} {fs : List (List Ev × List Byte)}
    (hn : inputs n = .ngt (fs.flatMap (fun f => f.1 ++ Actisense.stream (NgtSpec.wire f.2))))
    (hq : ∀ f ∈ fs, Actisense.Quiet f.1)
    (hv : ∀ f ∈ fs, NgtSpec.verdict f.2 ≠ .crash ∧ NgtSpec.verdict f.2 ≠ .overrun)
    (hh : ∀ f ∈ fs, ∀ v, NgtSpec.accepted f.2 = some v → Iface.Harmless v)
    {frame : List Ev × List Byte} (hframe : frame ∈ fs) {v : MsgView} (hacc : NgtSpec.accepted frame.2 = some v)
    (hample : Ample v) :
    ∃ values, ValuesOfBits denv (Nmea2k.shippedEnv conv) v values ∧
      (values ≠ [] → ∃ now, ∃ b ∈ s.ws.got c, ∃ j, DeltaJson enc now v.pgn v.source values j ∧
        ∀ j', Reads b j' ↔ j' = j) := by
  obtain ⟨ps, k1, k2⟩ := Iface.C90_ngt_partial hparse g fs hq hv hh
  have hvm : v ∈ fs.filterMap (fun f => NgtSpec.accepted f.2) := List.mem_filterMap.mpr ⟨frame, hframe, hacc⟩
  have : ∀ {vs : List MsgView} {ps : List Parsed}, List.Forall₂ (Iface.Decoded (Nmea2k.shippedEnv conv)) vs ps → v ∈ vs →
      ∃ p ∈ ps, Iface.Decoded (Nmea2k.shippedEnv conv) v p := by
    intro vs ps hf
    induction hf with
    | nil => intro h; cases h
    | cons hd _ ih =>
      intro h
      rcases List.mem_cons.mp h with rfl | h
      · exact ⟨_, by simp, hd⟩
      · obtain ⟨p, hp, hd'⟩ := ih h; exact ⟨p, by simp [hp], hd'⟩
  obtain ⟨p, hpm, hdec⟩ := this k2 hvm
  refine C118_complete hs hl hparse hprints mem g fp bus inputs hord hall hperm h hp ht hpc hw hc h0 hin hbuf (n := n)
    (p := p) ?_ hdec hample
  rw [hn]
  simp only [Input.acts]
  rw [k1, handed_all]
  exact hpm


/-! ## A run -/

/-- An AC input status message (PGN 127503) with two lines. -/
def acData : List Byte := [5, 2] ++ ([0x04] ++ List.replicate 17 1) ++ ([0x09] ++ List.replicate 17 2)

/-- As an NGT-1 sends it. -/
def acContent : List Byte := [0x93, 49, 6, 0x0F, 0xF2, 0x01, 255, 7, 0, 0, 0, 0, 38] ++ acData ++ [193]

def acView : MsgView :=
  { priority := 6, pgn := 127503, source := 7, destination := 255, length := 38, data := acData }

def acRaw : RawMessage := ⟨6, 127503, 7, 255, 38, ⟨acData, [193]⟩⟩

def acTables : Nmea2k.Env := Nmea2k.shippedEnv fun _ => 0

@[irreducible] def acValues : Nmea2k.DataMap :=
  match Nmea2k.parsePacketN pgnList acTables acRaw 60 with
  | some (.ok p) => p.data
  | _ => []

/-- Decoded; Go goes through the map backwards. -/
def acMsg : Message Body := ⟨acRaw, 89, acValues, acValues.reverse, 5⟩

theorem acMsg_perm : acMsg.body.order.Perm acMsg.body.data := by
  unfold acMsg
  exact List.reverse_perm acValues

theorem acMsg_parsed : Nmea2k.ParsePacket pgnList acTables acRaw (.ok (parsedOf acMsg)) := ⟨60, by decide +kernel⟩

/-- Interface 0 is an NGT-1 that receives the frame. -/
def acInput (i : Nat) : Input := .ngt (if i = 0 then Actisense.stream (NgtSpec.wire acContent) else [])

def acProgram : Program Body (List Byte) :=
  shippedProgram (List.insertionSort (· ≤ ·)) Opts.default ⟨true, false⟩ true Signalk.refEnv (marshal exampleEnc)

/-- What client 5 receives. -/
def acJson : List Byte :=
  match acProgram.delta acMsg with
  | .ok (some b) => b
  | _ => []

def acRun : List (SysEvent Body (List Byte)) :=
  [.ws (.register 5), .read 0 (some acMsg), .take 0, .act, .statistics [("127503", 1)] [], .st .hub,
    .delta acJson [5], .ws .hub, .ws .hub, .ws (.read 5)]

theorem acRun_reads (i : Nat) : readBy i acRun = if i = 0 then [acMsg] else [] := by
  by_cases h : 0 = i
  · subst h; rfl
  · have h' : i ≠ 0 := fun e => h e.symm
    simp [acRun, readBy, h, h']

theorem acRun_all : ∀ i, (readBy i acRun).map parsedOf =
    Iface.handed ((acInput i).acts (Iface.someParse acTables) (fun _ _ => []) (fun _ => 0) [] [] i) := by
  intro i
  rw [acRun_reads]
  have hp : Iface.someParse acTables acRaw = .ok (parsedOf acMsg) :=
    Nmea2k.ParsePacket_det (Iface.someParse_spec acTables acRaw) acMsg_parsed
  by_cases hi : i = 0
  · rw [if_pos hi]
    have hs : (Actisense.session (fun _ => 0) Actisense.RState.init
        (Actisense.stream (NgtSpec.wire acContent))).1 = [.msg acRaw] := by decide +kernel
    simp only [acInput, Input.acts, if_pos hi, Iface.actisenseActs, hs, Iface.actisenseLoop, hp]
    rfl
  · rw [if_neg hi]
    simp only [acInput, Input.acts, if_neg hi]
    rfl

theorem acRun_ordinary : Ordinary acRun := by
  refine ⟨?_, ?_, ?_, ?_⟩
  · intro a b c h
    have e : wsTrace acRun = .register 5 :: [.broadcast acJson [5], .hub, .hub, .read 5] := rfl
    rw [e] at h
    cases a with
    | nil => simp [Hub.Spec.touched]
    | cons x a =>
      exfalso
      simp only [List.cons_append, List.cons.injEq] at h
      have : (Hub.Event.register c : Hub.Event (List Byte)) ∈ a ++ .register c :: b := by simp
      rw [← h.2] at this
      simp at this
  · intro a b c h
    exfalso
    have : (Hub.Event.register c : Hub.Event Counters) ∈ stTrace acRun := by rw [h]; simp
    simp [stTrace, acRun] at this
  · intro c hc
    simp [wsTrace, acRun] at hc
  · intro c hc
    simp [stTrace, acRun] at hc

theorem refEnv_prints : Signalk.Prints Signalk.refEnv where
  text _ := rfl
  number _ := rfl
  empty v h := by
    have h : (v == .text "") = true := h
    exact beq_iff_eq.mp h

/-- The message reaches an entry, by evaluation. -/
def reachesB (data : List Byte) (d : Nmea2k.Pgn) (k : Nat) : Bool :=
  (List.range (k + 1)).all fun l => match Nmea2k.Spec.entryOf d l with
    | some f => decide (Nmea2k.Spec.entryPos d l / 8 + Nmea2k.Spec.byteCount f.size ≤ data.length)
    | none => false

theorem reachesB_spec {data : List Byte} {d : Nmea2k.Pgn} {k : Nat} (h : reachesB data d k = true) : Reaches data d k := by
  intro l hl
  have := List.all_eq_true.mp h l (List.mem_range.mpr (by omega))
  split at this
  · rename_i f hf
    exact ⟨f, hf, of_decide_eq_true this⟩
  · cases this

theorem onWire_of {env : Nmea2k.Env} {v : MsgView} {d : Nmea2k.Pgn} {k : Nat} (h : reachesB v.data d k = true) :
    EntryOnWire env v d k = (Nmea2k.Spec.entryOf d k).bind fun f =>
      given (Nmea2k.Spec.fieldValue env v.data f (Nmea2k.Spec.entryPos d k)) := by
  unfold EntryOnWire
  rw [if_pos (reachesB_spec h)]

/-- The run meets the hypotheses of `C118_ngt`: the quality of the second line reaches client 5 as JSON. -/
example : ∃ s, sysExec acProgram Sys.init acRun = some (.ok s) ∧
    ∃ values, (bs "electric.ac.5.Line 2.acceptability", Value.plain (.text "Being Qualified")) ∈ values ∧
      ∃ now, ∃ b ∈ s.ws.got 5, ∃ j, DeltaJson exampleEnc now 127503 7 values j ∧ ∀ j', Reads b j' ↔ j' = j := by
  have hx : (match sysExec acProgram Sys.init acRun with
    | some (.ok s) => (s.pending 0).isNone && decide (s.todo.length = 0) &&
        (match s.ws.pc with | .idle => true | _ => false) &&
        decide (5 ∈ s.ws.conns) && decide ((s.ws.chan 5).buf = [])
    | _ => false) = true := by decide +kernel
  cases hs : sysExec acProgram Sys.init acRun with
  | none => rw [hs] at hx; cases hx
  | some r =>
    cases r with
    | error e => rw [hs] at hx; cases hx
    | ok s =>
      rw [hs] at hx
      simp only [Bool.and_eq_true, decide_eq_true_eq, List.length_eq_zero_iff] at hx
      obtain ⟨⟨⟨⟨hp0, ht⟩, hpc⟩, hin⟩, hbuf⟩ := hx
      have hpc' : s.ws.pc = .idle := by revert hpc; cases s.ws.pc <;> simp
      have hperm : ∀ i, ∀ m ∈ readBy i acRun, m.body.order.Perm m.body.data := by
        intro i m hm
        rw [acRun_reads] at hm
        split at hm
        · rw [List.mem_singleton.mp hm]
          exact acMsg_perm
        · cases hm
      have hp : ∀ i, s.pending i = none := by
        intro i
        by_cases hi : i = 0
        · subst hi; exact Option.isNone_iff_eq_none.mp hp0
        · have := C69_order hs i
          rw [acRun_reads, if_neg hi] at this
          have := (List.append_eq_nil_iff.mp this).2
          revert this; cases s.pending i <;> simp
      have hacc : NgtSpec.accepted acContent = some acView := by decide +kernel
      have hst : Ample acView := ⟨by decide, by decide⟩
      obtain ⟨values, h1, h2⟩ := C118_ngt (conv := fun _ => 0) example_sane example_local (Iface.someParse_spec acTables)
        refEnv_prints (fun _ _ => []) (fun _ => 0) [] [] acInput acRun_ordinary acRun_all hperm hs hp ht hpc' rfl (c := 5)
        (by simp [acRun, wsTrace, Hub.Spec.registered]) (by rfl) hin hbuf
        (n := 0) (fs := [([], acContent)]) (by simp [acInput])
        (by intro f hf e he; rw [List.mem_singleton.mp hf] at he; cases he)
        (by decide +kernel)
        (by
          intro f hf v hv
          rw [List.mem_singleton.mp hf, hacc] at hv
          cases hv
          exact Iface.C90_harmless (by decide))
        (List.mem_singleton.mpr rfl) hacc hst
      have hmem : (bs "electric.ac.5.Line 2.acceptability", Value.plain (.text "Being Qualified")) ∈ values := by
        refine (h1 _ _).mpr ⟨89, Nmea2k.Table.p89, 13, Signalk.ac_only, ?_, (Signalk.Spec.pairs Signalk.MapTable.maps).take 12,
          Signalk.MapTable.m12, ⟨127503, ⟨[], []⟩, bs "3", bs "line", bs "2", bs "instance", bs "0", []⟩,
          (Signalk.Spec.pairs Signalk.MapTable.maps).drop 13, by decide +kernel,
          ⟨rfl, ⟨3, by decide +kernel, Or.inr ⟨by decide +kernel, by decide +kernel⟩⟩, fun c hc => by cases hc⟩, ?_, ?_, ?_⟩
        · rw [onWire_of (by decide +kernel)]
          decide +kernel
        · intro q hq hask
          have : ∀ q ∈ (Signalk.Spec.pairs Signalk.MapTable.maps).take 12, q.2.pgn = 127503 →
              ¬ Signalk.Spec.hasMult q.2 ∧ Signalk.parseInt q.2.field 64 = (1, true) := by decide +kernel
          obtain ⟨a, b⟩ := this q hq hask.1
          obtain ⟨fld, f1, f2 | ⟨f2, _⟩⟩ := hask.2.1
          · rw [b] at f1
            have : (1 : Int) = (fld : Int) := congrArg Prod.fst f1
            omega
          · exact a f2
        · unfold EntryPath
          have e0 : EntryOnWire (Nmea2k.shippedEnv fun _ => 0) acView Nmea2k.Table.p89 0 = some (.u64 5) := by
            rw [onWire_of (by decide +kernel)]; decide +kernel
          have e12 : EntryOnWire (Nmea2k.shippedEnv fun _ => 0) acView Nmea2k.Table.p89 12 = some (.text "Line 2") := by
            rw [onWire_of (by decide +kernel)]; decide +kernel
          have i0 : (Signalk.parseInt (bs "0") 32).1.toNat = 0 := by decide +kernel
          have i12 : 13 + (Signalk.parseInt (bs "2") 32).1.toNat - fieldOf Nmea2k.Table.p89 13 = 12 := by decide +kernel
          simp only [i0, i12, e0, e12]
          decide +kernel
        · decide +kernel
      exact ⟨s, rfl, values, hmem, h2 (fun h => by rw [h] at hmem; cases hmem)⟩

end Argo.Json
