import Verif.Main.SystemProps

set_option autoImplicit false

/-! # The statistics of the running program (C67, C97) -/

namespace Argo.Main

open Argo

/-! ## Specification -/

/-- The PGNs of the messages the consumer has taken, in order. -/
def Sys.history {δ β : Type} (s : Sys δ β) : List Nat := s.consumed.map (fun e => e.2.header.pgn)

/-- The counters say how often each PGN occurred: a counter for every PGN seen (64 bits), no other, each once. -/
structure Counts (history : List Nat) (log : Counters) : Prop where
  seen : ∀ p ∈ history, mapGet log (toString p) = some (UInt64.ofNat (history.count p))
  unseen : ∀ k, (∀ p ∈ history, k ≠ toString p) → mapGet log k = none
  keys : (log.map Prod.fst).Nodup

/-! ## Theorems -/

section
variable {δ β : Type} [DecidableEq β] {P : Program δ β}

theorem history_eq (s : Sys δ β) : (s.consumed.map Prod.snd).map (fun m => m.header.pgn) = s.history := by
  simp [Sys.history]

/-- **C67** (the running program): in every reachable state the counters and the display list say the truth
about the messages taken so far, displayed or not, from whichever interface. -/
theorem C67_run (hs : Sorts P.sort) {es : List (SysEvent δ β)} {s : Sys δ β}
    (h : sysExec P Sys.init es = some (.ok s)) : Truthful s.history s.stats := by
  have h1 := (C81_outputs (sysInv_exec h).effects).1
  rw [history_eq] at h1
  rw [h1]
  exact C67_statistics hs _

/-- **C97.** The n-th statistics message a client receives, in any schedule, says how often each PGN occurred
among all messages taken up to some moment: the one that many messages after those counted before it
registered. -/
theorem C97_client (hs : Sorts P.sort) {es : List (SysEvent δ β)} {s : Sys δ β} (ho : Ordinary es)
    (h : sysExec P Sys.init es = some (.ok s)) {c : Hub.Id} (hc : Hub.Spec.registered c (stTrace es))
    {n : Nat} {log : Counters} (hn : (s.st.got c)[n]? = some log) :
    before c (stTrace es) + n < s.history.length ∧
    Counts (s.history.take (before c (stTrace es) + n + 1)) log := by
  have hinv := sysInv_exec h
  have h1 := Hub.C63_prefix ho.stFresh ho.stNo hinv.st hc
  rw [since_eq_drop hc, hinv.counters] at h1
  obtain ⟨_, h2, _⟩ := C81_outputs hinv.effects
  rw [List.filterMap_append, history_eq] at h2
  obtain ⟨rest, hrest⟩ := h1
  have h3 : ((s.emitted.filterMap Effect.counters?).drop (before c (stTrace es)))[n]? = some log := by
    rw [← hrest, List.getElem?_append_left (List.getElem?_eq_some_iff.mp hn).1, hn]
  rw [List.getElem?_drop] at h3
  have h4 : (if P.out.websockets then (snapshots P.sort s.history).map Stats.log else [])[before c (stTrace es) + n]? =
      some log := by
    rw [← h2, List.getElem?_append_left (List.getElem?_eq_some_iff.mp h3).1, h3]
  split at h4
  · rw [List.getElem?_map] at h4
    unfold snapshots at h4
    rw [List.getElem?_map] at h4
    have hlt : before c (stTrace es) + n < s.history.length := by
      rcases Nat.lt_or_ge (before c (stTrace es) + n) s.history.length with hl | hl
      · exact hl
      · rw [List.getElem?_eq_none (by simpa using hl)] at h4; cases h4
    refine ⟨hlt, ?_⟩
    rw [List.getElem?_eq_getElem (by simpa using hlt)] at h4
    simp only [List.getElem_range, Option.map_some, Option.some.injEq] at h4
    have ht := C67_statistics hs (s.history.take (before c (stTrace es) + n + 1))
    rw [← h4]
    exact ⟨ht.seen, ht.unseen, ht.keys⟩
  · simp at h4

/-- **C97** (nothing is missed): a client that has kept up has received one statistics message for each message
taken since it registered, the last one counting all of them, once the consumer is done. -/
theorem C97_caught_up (hs : Sorts P.sort) {es : List (SysEvent δ β)} {s : Sys δ β} (ho : Ordinary es)
    (h : sysExec P Sys.init es = some (.ok s)) {c : Hub.Id} (hc : Hub.Spec.registered c (stTrace es))
    (hw : P.out.websockets = true) (hin : c ∈ s.st.conns) (hbuf : (s.st.chan c).buf = []) (hpc : s.st.pc = .idle)
    (ht : s.todo = []) :
    (s.st.got c).length = s.history.length - before c (stTrace es) ∧
    ∀ log, (s.st.got c).getLast? = some log → Counts s.history log := by
  have hinv := sysInv_exec h
  obtain ⟨_, h2, _⟩ := C81_outputs hinv.effects
  rw [ht, List.append_nil, if_pos hw, history_eq] at h2
  have hgot : s.st.got c = ((snapshots P.sort s.history).map Stats.log).drop (before c (stTrace es)) := by
    rw [← h2, ← hinv.counters, ← since_eq_drop hc]
    rcases Hub.C63_delivery ho.stFresh ho.stNo hinv.st hc with ⟨_, _, _, k⟩ | k
    · rw [← k, hbuf, Hub.pend]
      simp [hpc]
    · exact absurd hin k.1
  have hlen : (s.st.got c).length = s.history.length - before c (stTrace es) := by
    rw [hgot]; simp [snapshots]
  refine ⟨hlen, fun log hl => ?_⟩
  rw [List.getLast?_eq_getElem?] at hl
  obtain ⟨k1, k2⟩ := C97_client hs ho h hc hl
  have hpos : 0 < (s.st.got c).length := by
    have := (List.getElem?_eq_some_iff.mp hl).1; omega
  rw [List.take_of_length_le (by omega)] at k2
  exact k2

end

/-- A statistics client that registers between the first and the second message. -/
def countRun : List (SysEvent Nat Nat) :=
  [.read 0 (some (sampleMsg 127245 1)), .take 0, .act, .statistics [("127245", 1)] [], .st .hub, .st (.register 5),
    .delta 6 [], .ws .hub, .read 0 (some (sampleMsg 127245 3)), .take 0, .act, .statistics [("127245", 2)] [5], .st .hub,
    .delta 6 [], .st .hub, .st (.read 5)]

/-- It receives the counts of both. -/
example : (match sysExec sampleProgram Sys.init countRun with
    | some (.ok s) => s.st.got 5 == [[("127245", 2)]] && s.history == [127245, 127245] && s.todo.length == 0 &&
        s.st.conns == [5] && before 5 (stTrace countRun) == 1
    | _ => false) = true := by decide +kernel

/-- The hypotheses of `C97_client` and `C97_caught_up` hold of this run. -/
example : Ordinary countRun ∧ Hub.Spec.registered 5 (stTrace countRun) ∧ Sorts sampleProgram.sort := by
  refine ⟨⟨?_, ?_, ?_, ?_⟩, by decide, sorts_insertionSort⟩
  · intro a b c h
    exfalso
    have : (Hub.Event.register c : Hub.Event Nat) ∈ wsTrace countRun := by rw [h]; simp
    simp [wsTrace, countRun] at this
  · have e : stTrace countRun = [.broadcast [("127245", 1)] [], .hub] ++
        (.register 5 :: [.broadcast [("127245", 2)] [5], .hub, .hub, .read 5]) := by decide
    intro a b c h
    rw [e] at h
    rcases a with _ | ⟨x, _ | ⟨y, _ | ⟨z, a⟩⟩⟩
    · simp [Hub.Spec.touched]
    · simp at h
    · simp only [List.cons_append, List.nil_append, List.cons.injEq] at h
      obtain ⟨rfl, rfl, _⟩ := h
      simp [Hub.Spec.touched]
    · exfalso
      simp only [List.cons_append, List.nil_append, List.cons.injEq] at h
      have : (Hub.Event.register c : Hub.Event Counters) ∈ a ++ .register c :: b := by simp
      rw [← h.2.2.2] at this
      simp at this
  · intro c hc
    simp [wsTrace, countRun] at hc
  · intro c hc
    simp [stTrace, countRun] at hc

end Argo.Main
