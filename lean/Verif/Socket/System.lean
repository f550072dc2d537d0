import Verif.Hub.Props2
import Verif.Json.Delta
import Verif.Socket.Props
import Verif.Socket.Utf8

set_option autoImplicit false

/-! # C127: from the broadcasts to the browser -/

namespace Argo.Socket

open Argo
open Argo.Nmea2k (Val Parsed)
open Argo.Signalk (bs)

theorem sendable_of {ts : List Turn} (h : ∀ m ∈ taken ts, isText m = true ∧ m.length < 2 ^ 63) : Sendable ts := by
  intro t ht m hm
  refine h m (List.mem_filterMap.mpr ⟨t, ht, ?_⟩)
  rw [hm]

/-- **C127** (a client of the hub): what the browser has read as texts, however the bytes were cut, is an initial part of the messages
broadcast since it was registered, whole and in order: none twice, none left out before the last one. -/
theorem C127_client {es : List (Hub.Event (List Byte))} (hf : Hub.Spec.fresh es) (hu : Hub.Spec.noUnregister es)
    {s : Hub.State (List Byte)} (h : Hub.exec Hub.init es = some (.ok s)) {c : Hub.Id} (hc : Hub.Spec.registered c es)
    (hm : ∀ m ∈ Hub.Spec.since c es, isText m = true ∧ m.length < 2 ^ 63)
    -- the rounds of the pump of `c` are those in which it took what it has taken
    {ts : List Turn} (hts : taken ts = s.got c) {b : List Byte} (hb : b <+: writePump ts) :
    (client b).2 ≠ .failed ∧ texts (client b).1 <+: Hub.Spec.since c es := by
  have hp := Hub.C63_prefix hf hu h hc
  have hs : Sendable ts := sendable_of fun m hmm => hm m (hp.subset (hts ▸ hmm))
  exact ⟨(C127_stream hs hb).1, (hts ▸ (C127_texts hs hb).1).trans hp⟩

/-- **C127** (the close): a client that has read the close has read every message taken for it, and the hub has dropped it: those are all
the messages broadcast since it was registered, up to the one that did not fit into its channel. -/
theorem C127_close {es : List (Hub.Event (List Byte))} (hf : Hub.Spec.fresh es) (hu : Hub.Spec.noUnregister es)
    {s : Hub.State (List Byte)} (h : Hub.exec Hub.init es = some (.ok s)) {c : Hub.Id} (hc : Hub.Spec.registered c es)
    (hm : ∀ m ∈ Hub.Spec.since c es, isText m = true ∧ m.length < 2 ^ 63)
    {ts : List Turn} (hts : taken ts = s.got c)
    -- the pump found the channel closed only if it was, and then stopped
    (hsaw : ∀ t ∈ ts, t.wake = .closed → s.saw c = true) (hlast : ∀ t ∈ ts.dropLast, t.wake ≠ .closed)
    {b : List Byte} (hb : b <+: writePump ts) (hcl : (client b).2 = .closed) :
    Hub.Dropped es s c ∧ ∃ a rest m, es = a ++ .hub :: rest ∧ texts (client b).1 ++ [m] = Hub.Spec.since c a := by
  have hp := Hub.C63_prefix hf hu h hc
  have hs : Sendable ts := sendable_of fun m hmm => hm m (hp.subset (hts ▸ hmm))
  obtain ⟨_, h2, _, h4⟩ := C127_stream hs hb
  have hmem := h4.mp hcl
  obtain ⟨r, hr⟩ := h2
  have hnil : r = [] := by
    by_cases hn : r = []
    · exact hn
    · exfalso
      have hmem' : Got.close [] ∈ (ts.map fun t => said t.wake).dropLast := by
        rw [← hr, List.dropLast_append_of_ne_nil hn]
        exact List.mem_append_left _ hmem
      rw [← List.map_dropLast] at hmem'
      obtain ⟨t, ht, he⟩ := List.mem_map.mp hmem'
      refine hlast t ht ?_
      cases hw : t.wake <;> rw [hw] at he <;> first | rfl | cases he
  rw [hnil, List.append_nil] at hr
  have htx : texts (client b).1 = s.got c := by rw [hr, texts_said, hts]
  have hsaw' : s.saw c = true := by
    rw [hr] at hmem
    obtain ⟨t, ht, he⟩ := List.mem_map.mp hmem
    refine hsaw t ht ?_
    cases hw : t.wake <;> rw [hw] at he <;> first | rfl | cases he
  obtain ⟨k1, k2⟩ := Hub.C63_close hf h hsaw'
  rcases Hub.C63_delivery hf hu h hc with ⟨_, d2, _, _⟩ | hd
  · rw [d2] at k1; cases k1
  · refine ⟨hd, ?_⟩
    obtain ⟨_, _, a, rest, _, m, _, e1, _, _, _, e2⟩ := hd
    refine ⟨a, rest, m, e1, ?_⟩
    rw [htx]
    rw [k2, List.append_nil] at e2
    exact e2

section
open Argo.Main Argo.Json
variable {sort : List String → List String} {opts : Opts} {out : Outputs} {verbose : Bool} {denv : Signalk.Env Val}
  {enc : Json.Enc}

/-- **C127** (the browser): whatever the interfaces receive, at any moment of any schedule and wherever the bytes are cut, the browser does not
fail the connection, and all it has noticed are pings, a close without a reason and texts, each of them the JSON of the delta of a message
made of something an interface received. -/
theorem C127_delta (hs : Sane enc) {env : Nmea2k.Env} {parse : RawMessage → GoM Parsed}
    (hparse : ∀ m, Nmea2k.ParsePacket Nmea2k.Table.pgnList env m (parse m)) (mem : Nat → Nat → List Byte)
    (g : Nat → Nat) (fp : List Nat) (bus : List (Nat × Ev)) (inputs : Nat → Input)
    {es : List (SysEvent Body (List Byte))} (ho : Ordinary es)
    (hfeed : Feeds es (fun i => (inputs i).acts parse mem g fp bus i)) {s : Sys Body (List Byte)}
    (h : sysExec (shippedProgram sort opts out verbose denv (marshal enc)) Sys.init es = some (.ok s))
    {c : Hub.Id} (hc : Hub.Spec.registered c (wsTrace es)) (hl : ∀ m ∈ s.ws.got c, m.length < 2 ^ 63)
    {ts : List Turn} (hts : taken ts = s.ws.got c) {b : List Byte} (hb : b <+: writePump ts) :
    (client b).2 ≠ .failed ∧ ∀ x ∈ (client b).1, x = .ping [] ∨ x = .close [] ∨
      ∃ m, x = .text m ∧ ∃ i p values now j, (inputs i).Made env fp bus i p ∧ Reports denv p values ∧ values ≠ [] ∧
        DeltaJson enc now p.header.pgn p.header.source values j ∧ ∀ j', Reads m j' ↔ j' = j := by
  have hd := fun m hm => C104_client hs hparse mem g fp bus inputs ho hfeed h hc (b := m) hm
  have hsend : Sendable ts := sendable_of fun m hm => by
    rw [hts] at hm
    obtain ⟨_, _, _, _, j, _, _, _, _, hj⟩ := hd m hm
    exact ⟨reads_text ((hj j).mpr rfl), hl m hm⟩
  obtain ⟨h1, h2, _, _⟩ := C127_stream hsend hb
  refine ⟨h1, fun x hx => ?_⟩
  obtain ⟨t, ht, rfl⟩ := List.mem_map.mp (h2.subset hx)
  cases hw : t.wake with
  | tick => exact Or.inl rfl
  | closed => exact Or.inr (Or.inl rfl)
  | message m =>
    refine Or.inr (Or.inr ⟨m, rfl, hd m ?_⟩)
    rw [← hts]
    refine List.mem_filterMap.mpr ⟨t, ht, ?_⟩
    rw [hw]

end

/-! ## A connection -/

/-- Two messages, a ping between them, and the close. -/
def exampleTurns : List Turn :=
  [⟨.message (bs "{}"), none⟩, ⟨.tick, none⟩, ⟨.message (bs "[\"é\"]"), none⟩, ⟨.closed, none⟩]

/-- The hypotheses hold of it, the bytes are those of RFC 6455, and they are read, whole and cut. -/
example : Sendable exampleTurns ∧ Clean exampleTurns ∧
    writePump exampleTurns = [129, 2, 123, 125, 137, 0, 129, 6, 91, 34, 195, 169, 34, 93, 136, 0] ∧
    client (writePump exampleTurns) = ([.text (bs "{}"), .ping [], .text (bs "[\"é\"]"), .close []], .closed) ∧
    client ((writePump exampleTurns).take 11) = ([.text (bs "{}"), .ping []], .waiting) := by
  refine ⟨?_, ⟨by decide, by decide⟩, by decide +kernel, by decide +kernel, by decide +kernel⟩
  intro t ht m hm
  simp only [exampleTurns, List.mem_cons, List.not_mem_nil, or_false] at ht
  rcases ht with rfl | rfl | rfl | rfl
  · cases hm; exact ⟨by decide +kernel, by decide +kernel⟩
  · cases hm
  · cases hm; exact ⟨by decide +kernel, by decide +kernel⟩
  · cases hm

/-- A write that fails within the header of a longer frame: the first message is all the client has. -/
example : writePump [⟨.message (bs "{}"), none⟩, ⟨.message (List.replicate 200 65), some 3⟩, ⟨.message (bs "[]"), none⟩] =
      [129, 2, 123, 125, 129, 126, 0] ∧
    client [129, 2, 123, 125, 129, 126, 0] = ([.text (bs "{}")], .waiting) := by
  exact ⟨by decide +kernel, by decide +kernel⟩

/-- A client that reads nothing during 257 broadcasts, and everything afterwards. -/
def slowClient : List (Hub.Event (List Byte)) :=
  .register 0 :: ((List.replicate 257 [Hub.Event.broadcast (bs "{}") [0], .hub, .hub]).flatten ++ List.replicate 257 (.read 0))

def slowTurns : List Turn := List.replicate 256 ⟨.message (bs "{}"), none⟩ ++ [⟨.closed, none⟩]

example : ∃ s, Hub.exec Hub.init slowClient = some (.ok s) ∧ taken slowTurns = s.got 0 ∧ s.saw 0 = true ∧
    (client (writePump slowTurns)).2 = .closed ∧ Hub.Spec.fresh slowClient ∧ Hub.Spec.noUnregister slowClient ∧
    Hub.Spec.registered 0 slowClient := by
  have hf : Hub.Spec.fresh slowClient := by
    intro a b c h
    cases a with
    | nil => simp [Hub.Spec.touched]
    | cons x a =>
      exfalso
      have hm : Hub.Event.register c ∈ a ++ .register c :: b := by simp
      rw [show a ++ .register c :: b = _ from (List.cons.inj h).2.symm] at hm
      rcases List.mem_append.mp hm with hm | hm
      · obtain ⟨l, hl, hm⟩ := List.mem_flatten.mp hm
        rw [List.eq_of_mem_replicate hl] at hm
        simp at hm
      · cases List.eq_of_mem_replicate hm
  have hu : Hub.Spec.noUnregister slowClient := by
    intro c hm
    rcases List.mem_cons.mp hm with hm | hm
    · cases hm
    rcases List.mem_append.mp hm with hm | hm
    · obtain ⟨l, hl, hm⟩ := List.mem_flatten.mp hm
      rw [List.eq_of_mem_replicate hl] at hm
      simp at hm
    · cases List.eq_of_mem_replicate hm
  have h : (match Hub.exec Hub.init slowClient with
    | some (.ok s) => decide (taken slowTurns = s.got 0 ∧ s.saw 0 = true)
    | _ => false) = true := by decide +kernel
  split at h
  · next s hs => exact ⟨s, hs, (of_decide_eq_true h).1, (of_decide_eq_true h).2, by decide +kernel, hf, hu, List.mem_cons_self⟩
  · cases h

/-- A client that gets a masked frame, a text that is not UTF-8, or a fragment of nothing fails the connection. -/
example : client [129, 130, 0, 0, 0, 0, 1, 1] = ([], .failed) ∧ client [129, 1, 255] = ([], .failed) ∧
    client [128, 0] = ([], .failed) ∧ client [1, 1, 97, 137, 0, 128, 1, 98] = ([.ping [], .text [97, 98]], .waiting) := by
  exact ⟨by decide +kernel, by decide +kernel, by decide +kernel, by decide +kernel⟩

end Argo.Socket
