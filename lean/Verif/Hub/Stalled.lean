import Verif.Hub.Props2

set_option autoImplicit false

/-!
# Clients that stop reading (C87)

`unregister` is never sent in argo, and a write pump whose peer has gone away stops taking messages: the
only way such a connection leaves the hub is by overflow.
-/

namespace Argo.Hub

open Argo Argo.Hub.Spec

variable {Msg : Type} [DecidableEq Msg]

theorem got_noRead {es : List (Event Msg)} {s : State Msg} (h : exec init es = some (.ok s)) {c : Id}
    (hr : Event.read c ∉ es) : s.got c = [] := by
  induction es using List.reverseRecOn generalizing s with
  | nil => simp only [exec, Option.some.injEq, Except.ok.injEq] at h; subst h; rfl
  | append_singleton es e ih =>
    obtain ⟨s1, h1, h2⟩ := exec_snoc_ok h
    have h0 := ih h1 (fun hm => hr (List.mem_append_left _ hm))
    rw [← h0]
    cases e with
    | register d =>
      simp only [step] at h2
      split at h2
      · simp only [Option.some.injEq, Except.ok.injEq] at h2; subst h2; rfl
      · cases h2
    | unregister d =>
      simp only [step] at h2
      split at h2
      · split at h2
        · cases h2
        · simp only [Option.some.injEq, Except.ok.injEq] at h2; subst h2; rfl
      · cases h2
    | broadcast m o =>
      simp only [step] at h2
      split at h2
      · simp only [Option.some.injEq, Except.ok.injEq] at h2; subst h2; rfl
      · cases h2
    | hub =>
      simp only [step] at h2
      split at h2
      · cases h2
      · simp only [Option.some.injEq, Except.ok.injEq] at h2; subst h2; rfl
      · simp only [Option.some.injEq] at h2
        unfold visit at h2
        split at h2
        · cases h2
        · split at h2 <;> simp only [Except.ok.injEq] at h2 <;> subst h2 <;> rfl
    | read d =>
      have hcd : c ≠ d := by rintro rfl; exact hr (by simp)
      simp only [step] at h2
      split at h2
      · simp only [Option.some.injEq, Except.ok.injEq] at h2
        subst h2
        simp only [upd_other _ _ hcd]
      · split at h2
        · simp only [Option.some.injEq, Except.ok.injEq] at h2; subst h2; rfl
        · cases h2

/-- **C87.** A client that takes nothing is kept through exactly 256 broadcasts, all of which wait for it; at
the end of the 257th the hub has forgotten it and closed its channel, which holds the first 256 for ever. -/
theorem C87_stalled {es : List (Event Msg)} (hf : fresh es) (hu : noUnregister es) {s : State Msg}
    (h : exec init es = some (.ok s)) (hi : s.pc = .idle) {c : Id} (hc : registered c es)
    (hr : Event.read c ∉ es) :
    ((since c es).length ≤ 256 → c ∈ s.conns ∧ s.chan c = ⟨since c es, false⟩) ∧
    (256 < (since c es).length → c ∉ s.conns ∧ s.chan c = ⟨(since c es).take 256, true⟩) := by
  have hg := got_noRead h hr
  rcases C63_delivery hf hu h hc with ⟨h1, h2, h3, h4⟩ | ⟨h1, h2, a, b, s1, m, todo, rfl, h5, h6, h7, h8⟩
  · have hb : (s.chan c).buf = since c es := by
      rw [hg] at h4
      simpa [pend, hi] using h4
    refine ⟨fun _ => ⟨h1, ?_⟩, fun hlt => ?_⟩
    · rw [← hb, ← h2]
    · rw [hb] at h3; omega
  · have hfa : fresh a := fresh_prefix hf
    have hinv := inv_exec hfa h5
    have hcc := (hinv.todo m _ h6).2 c (by simp)
    have hreg := hinv.reg c hcc
    have hd := hinv.deliver c hcc
    have hga : s1.got c = [] := got_noRead h5 (fun hm => hr (List.mem_append_left _ hm))
    rw [hga] at hd
    rw [hg] at h8
    simp only [List.nil_append] at hd h8
    have hp : pend s1 c = [m] := by simp [pend, h6]
    rw [hp, ← h8] at hd
    have hb : (s1.chan c).buf = (s.chan c).buf := List.append_cancel_right hd
    rw [hb] at h7
    have hs : since c (a ++ .hub :: b) = (s.chan c).buf ++ ([m] ++ broadcasts (.hub :: b)) := by
      rw [since_append, if_pos hreg, ← h8, List.append_assoc]
    refine ⟨fun hle => ?_, fun _ => ⟨h1, ?_⟩⟩
    · rw [hs] at hle
      simp only [List.length_append, List.length_singleton] at hle
      omega
    · rw [hs, List.take_append_of_le_length (by omega), List.take_of_length_le (by omega), ← h2]

/-- A connection the hub still knows between two broadcasts is never more than 256 messages behind. -/
theorem C87_backlog {es : List (Event Msg)} (hf : fresh es) (hu : noUnregister es) {s : State Msg}
    (h : exec init es = some (.ok s)) (hi : s.pc = .idle) {c : Id} (hc : c ∈ s.conns) :
    (since c es).length ≤ (s.got c).length + 256 := by
  rcases C63_delivery hf hu h ((inv_exec hf h).reg c hc) with ⟨_, _, h3, h4⟩ | ⟨h1, _⟩
  · rw [← h4]
    simp only [pend, hi, List.append_nil, List.length_append]
    omega
  · exact absurd hc h1

/-- Non-vacuity: a client that never reads, `n` broadcasts: kept or forgotten according to `n ≤ 256`. -/
example (n : Nat) (hn : n ≤ 256) : ∃ s : State Nat, exec init (.register 0 :: flood n) = some (.ok s) ∧
    s.pc = .idle ∧ Event.read 0 ∉ (.register 0 :: flood n : List (Event Nat)) ∧
    noUnregister (.register 0 :: flood n) ∧ registered 0 (.register 0 :: flood n) ∧ 0 ∈ s.conns := by
  obtain ⟨s, h1, h2, h3, _⟩ := flood_state n hn
  have hr : ∀ n, Event.read 0 ∉ flood n := by
    intro n
    induction n with
    | zero => simp [flood]
    | succ n ih => simp [flood, ih]
  have hu : ∀ n c, Event.unregister c ∉ flood n := by
    intro n c
    induction n with
    | zero => simp [flood]
    | succ n ih => simp [flood, ih]
  exact ⟨s, h1, h2, by simp [hr], fun c => by simp [hu], by simp [registered], by simp [h3]⟩

end Argo.Hub
