import Verif.Hub.Props

set_option autoImplicit false

/-! # C63–C66: the theorems -/

namespace Argo.Hub

open Argo Argo.Hub.Spec

variable {Msg : Type} [DecidableEq Msg]

/-! ## C64 -/

theorem step_ok {es : List (Event Msg)} {s : State Msg} (h : Inv es s) {e : Event Msg} {p : Panic}
    (hs : step s e = some (.error p)) : ∃ c, e = .unregister c ∧ (s.chan c).closed = true := by
  cases e with
  | register c => simp only [step] at hs; split at hs <;> cases hs
  | unregister c =>
    simp only [step] at hs
    split at hs
    · split at hs
      · rename_i hc; exact ⟨c, rfl, hc⟩
      · cases hs
    · cases hs
  | broadcast m o => simp only [step] at hs; split at hs <;> cases hs
  | hub =>
    simp only [step] at hs
    split at hs
    · cases hs
    · cases hs
    · rename_i m c todo hpc
      have hcc := (h.todo m _ hpc).2 c (by simp)
      simp only [Option.some.injEq] at hs
      unfold visit at hs
      rw [h.isOpen c hcc] at hs
      simp only [Bool.false_eq_true, if_false] at hs
      split at hs <;> cases hs
  | read c =>
    simp only [step] at hs
    split at hs
    · cases hs
    · split at hs <;> cases hs

/-- With new connections and no unregister request, no schedule makes the hub panic. -/
theorem C64_no_panic {es : List (Event Msg)} (hf : fresh es) (hu : noUnregister es) (p : Panic) :
    exec init es ≠ some (.error p) := by
  induction es using List.reverseRecOn with
  | nil => simp [exec]
  | append_singleton es e ih =>
    intro h
    rw [exec_snoc] at h
    have hu' : noUnregister es := fun c hc => hu c (List.mem_append_left _ hc)
    cases h1 : exec init es with
    | none => rw [h1] at h; cases h
    | some r =>
      rw [h1] at h
      cases r with
      | error q => exact ih (fresh_prefix hf) hu' (by rw [h1]; cases h; rfl)
      | ok s =>
        obtain ⟨c, rfl, _⟩ := step_ok (inv_exec (fresh_prefix hf) h1) h
        exact hu c (by simp)

/-- In the middle of a broadcast the hub can always go on, whatever the clients do. -/
theorem C64_hub_never_waits {es : List (Event Msg)} (hf : fresh es) {s : State Msg} (h : exec init es = some (.ok s))
    {m : Msg} {todo : List Id} (hpc : s.pc = .sending m todo) :
    ∃ s', step s .hub = some (.ok s') ∧
      s'.pc = (match todo with | [] => .idle | _ :: rest => .sending m rest) := by
  cases todo with
  | nil => exact ⟨{ s with pc := .idle }, by simp only [step, hpc], rfl⟩
  | cons c todo =>
    have hinv := inv_exec hf h
    have hcc := (hinv.todo m _ hpc).2 c (by simp)
    simp only [step, hpc]
    unfold visit
    rw [hinv.isOpen c hcc]
    simp only [Bool.false_eq_true, if_false]
    split
    · exact ⟨_, rfl, rfl⟩
    · exact ⟨_, rfl, rfl⟩

/-- A broadcast ends after at most one step per connection and one more: no other event prolongs it. -/
theorem C64_broadcast_ends {s s2 : State Msg} {m : Msg} {todo : List Id} (hpc : s.pc = .sending m todo)
    {es : List (Event Msg)} (h : exec s es = some (.ok s2)) (hn : todo.length < es.count .hub) :
    ∃ a b s1, es = a ++ b ∧ exec s a = some (.ok s1) ∧ s1.pc = .idle := by
  induction es generalizing s todo with
  | nil => simp at hn
  | cons e es ih =>
    simp only [exec] at h
    cases hs : step s e with
    | none => rw [hs] at h; cases h
    | some r =>
      rw [hs] at h
      cases r with
      | error _ => cases h
      | ok s' =>
        simp only at h
        have ext : ∀ {todo' : List Id}, s'.pc = .sending m todo' → todo'.length < es.count .hub →
            ∃ a b s1, e :: es = a ++ b ∧ exec s a = some (.ok s1) ∧ s1.pc = .idle := by
          intro todo' hpc' hn'
          obtain ⟨a, b, s1, rfl, h1, h2⟩ := ih hpc' h hn'
          exact ⟨e :: a, b, s1, rfl, by simp only [exec, hs]; exact h1, h2⟩
        cases e with
        | register c => simp [step, hpc] at hs
        | unregister c => simp [step, hpc] at hs
        | broadcast m o => simp [step, hpc] at hs
        | read c =>
          have hc : (Event.read c :: es).count .hub = es.count .hub := by simp
          rw [hc] at hn
          refine ext (todo' := todo) ?_ hn
          simp only [step] at hs
          split at hs
          · simp only [Option.some.injEq, Except.ok.injEq] at hs; subst hs; exact hpc
          · split at hs
            · simp only [Option.some.injEq, Except.ok.injEq] at hs; subst hs; exact hpc
            · cases hs
        | hub =>
          have hc : (Event.hub :: es).count .hub = es.count .hub + 1 := by simp
          rw [hc] at hn
          simp only [step, hpc] at hs
          cases todo with
          | nil =>
            simp only [Option.some.injEq, Except.ok.injEq] at hs
            subst hs
            exact ⟨[.hub], es, { s with pc := .idle }, rfl, by simp only [exec, step, hpc], rfl⟩
          | cons c todo =>
            simp only [Option.some.injEq] at hs
            refine ext (todo' := todo) ?_ (by simp only [List.length_cons] at hn; omega)
            unfold visit at hs
            split at hs
            · cases hs
            · split at hs
              · simp only [Except.ok.injEq] at hs; subst hs; rfl
              · simp only [Except.ok.injEq] at hs; subst hs; rfl

/-! ## C63 -/

/-- The connection was dropped: at some visit with 256 pending messages; it has, received or still in its
channel, exactly the messages since its registration before the one that did not fit; its channel is
closed and the hub does not know it any more. -/
def Dropped (es : List (Event Msg)) (s : State Msg) (c : Id) : Prop :=
  c ∉ s.conns ∧ (s.chan c).closed = true ∧
  ∃ a b s1 m todo, es = a ++ .hub :: b ∧ exec init a = some (.ok s1) ∧ s1.pc = .sending m (c :: todo) ∧
    (s1.chan c).buf.length = 256 ∧ s.got c ++ (s.chan c).buf ++ [m] = since c a

theorem dropped_step {es : List (Event Msg)} {e : Event Msg} {s s' : State Msg} {c : Id} (hinv : Inv es s)
    (hf : fresh (es ++ [e])) (hu : ∀ d, e ≠ .unregister d)
    (hreg : registered c es) (h : Dropped es s c) (hs : step s e = some (.ok s')) :
    Dropped (es ++ [e]) s' c := by
  obtain ⟨h1, h2, a, b, s1, m, todo, rfl, h3, h4, h5, h6⟩ := h
  have key : c ∉ s'.conns ∧ (s'.chan c).closed = true ∧
      s'.got c ++ (s'.chan c).buf = s.got c ++ (s.chan c).buf := by
    cases e with
    | register d =>
      have hdc : d ≠ c := by
        rintro rfl; exact fresh_register hf (registered_touched hreg)
      simp only [step] at hs
      split at hs
      · simp only [Option.some.injEq, Except.ok.injEq] at hs
        subst hs
        refine ⟨?_, h2, rfl⟩
        simp only [insertId]
        split
        · exact h1
        · simp [h1, hdc.symm]
      · cases hs
    | unregister d => exact absurd rfl (hu d)
    | broadcast m' o =>
      simp only [step] at hs
      split at hs
      · simp only [Option.some.injEq, Except.ok.injEq] at hs; subst hs; exact ⟨h1, h2, rfl⟩
      · cases hs
    | hub =>
      simp only [step] at hs
      split at hs
      · cases hs
      · simp only [Option.some.injEq, Except.ok.injEq] at hs; subst hs; exact ⟨h1, h2, rfl⟩
      · rename_i m' d todo' hpc
        have hdd := (hinv.todo m' _ hpc).2 d (by simp)
        have hcd : c ≠ d := by rintro rfl; exact h1 hdd
        simp only [Option.some.injEq] at hs
        unfold visit at hs
        split at hs
        · cases hs
        · split at hs
          · simp only [Except.ok.injEq] at hs
            subst hs
            simp only [upd_other _ _ hcd]
            exact ⟨h1, h2, trivial⟩
          · simp only [Except.ok.injEq] at hs
            subst hs
            simp only [upd_other _ _ hcd]
            exact ⟨fun hm => h1 (List.mem_of_mem_erase hm), h2, trivial⟩
    | read d =>
      simp only [step] at hs
      split at hs
      · rename_i x rest hbuf
        simp only [Option.some.injEq, Except.ok.injEq] at hs
        subst hs
        by_cases hcd : c = d
        · subst hcd
          simp only [upd_same]
          exact ⟨h1, h2, by rw [hbuf]; simp⟩
        · simp only [upd_other _ _ hcd]
          exact ⟨h1, h2, trivial⟩
      · split at hs
        · simp only [Option.some.injEq, Except.ok.injEq] at hs; subst hs; exact ⟨h1, h2, rfl⟩
        · cases hs
  exact ⟨key.1, key.2.1, a, b ++ [e], s1, m, todo, by simp, h3, h4, h5, by rw [key.2.2]; exact h6⟩

/-- Every registered connection is either connected and has, received or pending, exactly the messages
since its registration (except the one being sent round, if its turn is yet to come), or it was dropped. -/
theorem C63_delivery {es : List (Event Msg)} (hf : fresh es) (hu : noUnregister es) {s : State Msg}
    (h : exec init es = some (.ok s)) {c : Id} (hc : registered c es) :
    (c ∈ s.conns ∧ (s.chan c).closed = false ∧ (s.chan c).buf.length ≤ 256 ∧
      s.got c ++ (s.chan c).buf ++ pend s c = since c es) ∨ Dropped es s c := by
  induction es using List.reverseRecOn generalizing s with
  | nil => cases hc
  | append_singleton es e ih =>
    have hinv := inv_exec hf h
    obtain ⟨s1, h1, h2⟩ := exec_snoc_ok h
    have hu' : noUnregister es := fun c hc => hu c (List.mem_append_left _ hc)
    have hue : ∀ d, e ≠ .unregister d := by rintro d rfl; exact hu d (by simp)
    by_cases hm : c ∈ s.conns
    · exact Or.inl ⟨hm, hinv.isOpen c hm, hinv.len c, hinv.deliver c hm⟩
    · right
      have hinv1 := inv_exec (fresh_prefix hf) h1
      by_cases hreg : registered c es
      · rcases ih (fresh_prefix hf) hu' h1 hreg with ⟨g1, g2, g3, g4⟩ | hd
        · -- it was connected before this event: the event is the visit that drops it
          cases e with
          | register d =>
            simp only [step] at h2
            split at h2
            · simp only [Option.some.injEq, Except.ok.injEq] at h2
              subst h2
              exact absurd (by simp only [insertId]; split <;> simp [g1]) hm
            · cases h2
          | unregister d => exact absurd rfl (hue d)
          | broadcast m o =>
            simp only [step] at h2
            split at h2
            · simp only [Option.some.injEq, Except.ok.injEq] at h2; subst h2; exact absurd g1 hm
            · cases h2
          | read d =>
            simp only [step] at h2
            split at h2
            · simp only [Option.some.injEq, Except.ok.injEq] at h2; subst h2; exact absurd g1 hm
            · split at h2
              · simp only [Option.some.injEq, Except.ok.injEq] at h2; subst h2; exact absurd g1 hm
              · cases h2
          | hub =>
            simp only [step] at h2
            split at h2
            · cases h2
            · simp only [Option.some.injEq, Except.ok.injEq] at h2; subst h2; exact absurd g1 hm
            · rename_i m d todo hpc
              simp only [Option.some.injEq] at h2
              unfold visit at h2
              split at h2
              · cases h2
              · split at h2
                · simp only [Except.ok.injEq] at h2; subst h2; exact absurd g1 hm
                · rename_i hlen
                  simp only [Except.ok.injEq] at h2
                  subst h2
                  have hcd : c = d := by
                    by_contra hcd
                    exact hm (by simp only; exact (hinv1.nodup.mem_erase_iff).mpr ⟨hcd, g1⟩)
                  subst hcd
                  refine ⟨hm, by simp only [upd_same], es, [], s1, m, todo, rfl, h1, hpc, ?_, ?_⟩
                  · have : cap = 256 := rfl
                    omega
                  · simp only [upd_same]
                    rw [← g4]
                    simp [pend, hpc]
        · exact dropped_step hinv1 hf hue hreg hd h2
      · -- registered just now
        rcases List.mem_append.mp hc with h' | h'
        · exact absurd h' hreg
        · simp only [List.mem_singleton] at h'
          subst h'
          simp only [step] at h2
          split at h2
          · simp only [Option.some.injEq, Except.ok.injEq] at h2
            subst h2
            exact absurd (by simp only [insertId]; split <;> simp_all) hm
          · cases h2

/-- What a client has received is always, in order and without gaps, an initial part of the messages
since its registration. -/
theorem C63_prefix {es : List (Event Msg)} (hf : fresh es) (hu : noUnregister es) {s : State Msg}
    (h : exec init es = some (.ok s)) {c : Id} (hc : registered c es) : s.got c <+: since c es := by
  rcases C63_delivery hf hu h hc with ⟨_, _, _, h4⟩ | ⟨_, _, a, b, s1, m, todo, rfl, h3, h5, h6, h7⟩
  · exact ⟨(s.chan c).buf ++ pend s c, by rw [← List.append_assoc]; exact h4⟩
  · have hreg : registered c a := by
      have hfa : fresh a := fresh_prefix hf
      have hinv := inv_exec hfa h3
      exact hinv.reg c ((hinv.todo m _ h5).2 c (by simp))
    rw [since_append, if_pos hreg]
    refine List.IsPrefix.trans ?_ (List.prefix_append _ _)
    exact ⟨(s.chan c).buf ++ [m], by rw [← List.append_assoc]; exact h7⟩

/-- A visit drops the connection exactly when 256 messages are pending. -/
theorem C63_drop_iff {es : List (Event Msg)} (hf : fresh es) {s s' : State Msg} (h : exec init es = some (.ok s))
    {m : Msg} {c : Id} {todo : List Id} (hpc : s.pc = .sending m (c :: todo))
    (hs : step s .hub = some (.ok s')) :
    (c ∉ s'.conns ↔ (s.chan c).buf.length = 256) ∧
    ((s.chan c).buf.length < 256 → (s'.chan c).buf = (s.chan c).buf ++ [m]) := by
  rw [show (256 : Nat) = cap from rfl]
  have hinv := inv_exec hf h
  have hcc := (hinv.todo m _ hpc).2 c (by simp)
  have hlen := hinv.len c
  simp only [step, hpc, Option.some.injEq] at hs
  unfold visit at hs
  rw [hinv.isOpen c hcc] at hs
  simp only [Bool.false_eq_true, if_false] at hs
  split at hs
  · rename_i hlt
    simp only [Except.ok.injEq] at hs
    subst hs
    exact ⟨⟨fun hn => absurd hcc hn, fun he => by omega⟩, fun _ => by simp only [upd_same]⟩
  · rename_i hge
    simp only [Except.ok.injEq] at hs
    subst hs
    refine ⟨⟨fun _ => by omega, fun _ => ?_⟩, fun hlt => absurd hlt hge⟩
    simp only
    rw [hinv.nodup.mem_erase_iff]
    exact fun h => h.1 rfl

/-- A client that sees its channel closed has received everything that was queued for it, and will get
nothing more. -/
theorem C63_close {es : List (Event Msg)} (hf : fresh es) {s : State Msg} (h : exec init es = some (.ok s)) {c : Id}
    (hc : s.saw c = true) : (s.chan c).closed = true ∧ (s.chan c).buf = [] := by
  induction es using List.reverseRecOn generalizing s with
  | nil => simp only [exec, Option.some.injEq, Except.ok.injEq] at h; subst h; simp [init] at hc
  | append_singleton es e ih =>
    obtain ⟨s1, h1, h2⟩ := exec_snoc_ok h
    have hinv := inv_exec (fresh_prefix hf) h1
    have ih' := ih (fresh_prefix hf) h1
    cases e with
    | register d =>
      simp only [step] at h2
      split at h2
      · simp only [Option.some.injEq, Except.ok.injEq] at h2; subst h2; exact ih' hc
      · cases h2
    | unregister d =>
      simp only [step] at h2
      split at h2
      · split at h2
        · cases h2
        · rename_i hcl
          simp only [Option.some.injEq, Except.ok.injEq] at h2
          subst h2
          have := ih' hc
          by_cases hcd : c = d
          · subst hcd; exact absurd this.1 hcl
          · simp only [upd_other _ _ hcd]; exact this
      · cases h2
    | broadcast m o =>
      simp only [step] at h2
      split at h2
      · simp only [Option.some.injEq, Except.ok.injEq] at h2; subst h2; exact ih' hc
      · cases h2
    | hub =>
      simp only [step] at h2
      split at h2
      · cases h2
      · simp only [Option.some.injEq, Except.ok.injEq] at h2; subst h2; exact ih' hc
      · rename_i m d todo hpc
        have hdd := hinv.isOpen d ((hinv.todo m _ hpc).2 d (by simp))
        simp only [Option.some.injEq] at h2
        unfold visit at h2
        have hne : ∀ (h : s1.saw c = true), c ≠ d := by
          rintro h rfl
          have := (ih' h).1
          rw [hdd] at this; cases this
        split at h2
        · cases h2
        · split at h2
          · simp only [Except.ok.injEq] at h2
            subst h2
            simp only [upd_other _ _ (hne hc)]; exact ih' hc
          · simp only [Except.ok.injEq] at h2
            subst h2
            simp only [upd_other _ _ (hne hc)]; exact ih' hc
    | read d =>
      simp only [step] at h2
      split at h2
      · rename_i m rest hbuf
        simp only [Option.some.injEq, Except.ok.injEq] at h2
        subst h2
        have := ih' hc
        by_cases hcd : c = d
        · subst hcd; rw [this.2] at hbuf; cases hbuf
        · simp only [upd_other _ _ hcd]; exact this
      · rename_i hbuf
        split at h2
        · rename_i hcl
          simp only [Option.some.injEq, Except.ok.injEq] at h2
          subst h2
          by_cases hcd : c = d
          · subst hcd; exact ⟨hcl, hbuf⟩
          · simp only [upd_other _ _ hcd] at hc; exact ih' hc
        · cases h2

/-! ## C65 -/

/-- A connection that was registered and is no longer known to the hub has a closed channel. -/
theorem closed_of_gone {es : List (Event Msg)} (hf : fresh es) {s : State Msg} (h : exec init es = some (.ok s)) {c : Id}
    (hr : registered c es) (hg : c ∉ s.conns) : (s.chan c).closed = true := by
  induction es using List.reverseRecOn generalizing s with
  | nil => cases hr
  | append_singleton es e ih =>
    obtain ⟨s1, h1, h2⟩ := exec_snoc_ok h
    have hinv := inv_exec (fresh_prefix hf) h1
    have keep : ∀ (P : c ∉ s1.conns) (hk : registered c es), (s1.chan c).closed = true :=
      fun P hk => ih (fresh_prefix hf) h1 hk P
    cases e with
    | register d =>
      simp only [step] at h2
      split at h2
      · simp only [Option.some.injEq, Except.ok.injEq] at h2
        subst h2
        have hcd : c ≠ d := by
          rintro rfl; apply hg; simp only [insertId]; split <;> simp_all
        have hreg : registered c es := by
          rcases List.mem_append.mp hr with h | h
          · exact h
          · simp only [List.mem_singleton, Event.register.injEq] at h; exact absurd h hcd
        refine keep (fun hm => hg ?_) hreg
        simp only [insertId]; split <;> simp [hm]
      · cases h2
    | unregister d =>
      have hreg : registered c es := by
        rcases List.mem_append.mp hr with h | h
        · exact h
        · simp at h
      simp only [step] at h2
      split at h2
      · split at h2
        · cases h2
        · simp only [Option.some.injEq, Except.ok.injEq] at h2
          subst h2
          by_cases hcd : c = d
          · subst hcd; simp only [upd_same]
          · simp only [upd_other _ _ hcd]
            exact keep (fun hm => hg ((hinv.nodup.mem_erase_iff).mpr ⟨hcd, hm⟩)) hreg
      · cases h2
    | broadcast m o =>
      have hreg : registered c es := by
        rcases List.mem_append.mp hr with h | h
        · exact h
        · simp at h
      simp only [step] at h2
      split at h2
      · simp only [Option.some.injEq, Except.ok.injEq] at h2; subst h2; exact keep hg hreg
      · cases h2
    | hub =>
      have hreg : registered c es := by
        rcases List.mem_append.mp hr with h | h
        · exact h
        · simp at h
      simp only [step] at h2
      split at h2
      · cases h2
      · simp only [Option.some.injEq, Except.ok.injEq] at h2; subst h2; exact keep hg hreg
      · rename_i m d todo hpc
        simp only [Option.some.injEq] at h2
        have hdd := (hinv.todo m _ hpc).2 d (by simp)
        unfold visit at h2
        split at h2
        · cases h2
        · split at h2
          · simp only [Except.ok.injEq] at h2
            subst h2
            have hcd : c ≠ d := by rintro rfl; exact hg hdd
            simp only [upd_other _ _ hcd]
            exact keep hg hreg
          · simp only [Except.ok.injEq] at h2
            subst h2
            by_cases hcd : c = d
            · subst hcd; simp only [upd_same]
            · simp only [upd_other _ _ hcd]
              exact keep (fun hm => hg ((hinv.nodup.mem_erase_iff).mpr ⟨hcd, hm⟩)) hreg
    | read d =>
      have hreg : registered c es := by
        rcases List.mem_append.mp hr with h | h
        · exact h
        · simp at h
      simp only [step] at h2
      split at h2
      · simp only [Option.some.injEq, Except.ok.injEq] at h2
        subst h2
        by_cases hcd : c = d
        · subst hcd; simp only [upd_same]; exact keep hg hreg
        · simp only [upd_other _ _ hcd]; exact keep hg hreg
      · split at h2
        · simp only [Option.some.injEq, Except.ok.injEq] at h2; subst h2; exact keep hg hreg
        · cases h2

/-- Unregistering a registered connection panics exactly when the hub no longer knows it (it was dropped
or unregistered before); otherwise it is forgotten and its channel closed, keeping what is queued. -/
theorem C65_unregister_partial {es : List (Event Msg)} (hf : fresh es) {s : State Msg} (h : exec init es = some (.ok s))
    (hi : s.pc = .idle) {c : Id} (hr : registered c es) :
    (step s (.unregister c) = some (.error .closeClosed) ↔ c ∉ s.conns) ∧
    (c ∈ s.conns → ∃ s', step s (.unregister c) = some (.ok s') ∧ c ∉ s'.conns ∧
      (s'.chan c) = ⟨(s.chan c).buf, true⟩ ∧ s'.got c = s.got c ∧
      ∀ d, d ≠ c → (d ∈ s'.conns ↔ d ∈ s.conns) ∧ s'.chan d = s.chan d) := by
  have hinv := inv_exec hf h
  constructor
  · simp only [step, hi, if_true]
    constructor
    · intro hs hm
      rw [hinv.isOpen c hm] at hs
      simp at hs
    · intro hg
      rw [closed_of_gone hf h hr hg, if_pos rfl]
  · intro hm
    simp only [step, hi, if_true, hinv.isOpen c hm]
    refine ⟨_, rfl, ?_, ?_, rfl, ?_⟩
    · simp only
      rw [hinv.nodup.mem_erase_iff]; exact fun h => h.1 rfl
    · simp only [upd_same]
    · intro d hd
      simp only [upd_other _ _ hd]
      rw [hinv.nodup.mem_erase_iff]
      exact ⟨⟨fun h => h.2, fun h => ⟨hd, h⟩⟩, trivial⟩

/-- The schedule of one client that never reads: `n` broadcasts, each sent to it. -/
def flood : Nat → List (Event Nat)
  | 0 => []
  | n + 1 => flood n ++ [.broadcast n [0], .hub, .hub]

theorem flood_state (n : Nat) (hn : n ≤ cap) : ∃ s, exec init (.register 0 :: flood n) = some (.ok s) ∧
    s.pc = .idle ∧ s.conns = [0] ∧ s.chan 0 = ⟨List.range n, false⟩ := by
  induction n with
  | zero => exact ⟨{ init with conns := [0] }, rfl, rfl, rfl, rfl⟩
  | succ n ih =>
    obtain ⟨s, h1, h2, h3, h4⟩ := ih (by omega)
    have e : (Event.register 0 : Event Nat) :: flood (n + 1) =
      (.register 0 :: flood n) ++ [.broadcast n [0], .hub, .hub] := rfl
    rw [e, exec_append h1]
    have hlt : (List.range n).length < cap := by simp; omega
    refine ⟨{ s with chan := upd s.chan 0 ⟨List.range n ++ [n], false⟩, pc := .idle }, ?_, rfl, h3, ?_⟩
    · simp only [exec, step]
      rw [if_pos ⟨h2, by rw [h3]⟩]
      simp only [visit, h4, Bool.false_eq_true, if_false]
      rw [if_pos hlt]
    · simp only [upd_same, List.range_succ]

/-- After 257 unread messages the client is dropped; unregistering it then panics. -/
theorem C65_false : ∃ es : List (Event Nat), fresh es ∧ exec init es = some (.error .closeClosed) := by
  obtain ⟨s, h1, h2, h3, h4⟩ := flood_state cap (Nat.le_refl _)
  refine ⟨(.register 0 :: flood cap) ++ [.broadcast 7 [0], .hub, .hub, .unregister 0], ?_, ?_⟩
  · have hfl : ∀ n c, Event.register c ∉ flood n := by
      intro n c
      induction n with
      | zero => simp [flood]
      | succ n ih => simp [flood, ih]
    intro a b c hab
    cases a with
    | nil => simp [touched]
    | cons x a =>
      exfalso
      simp only [List.cons_append, List.cons.injEq] at hab
      have : Event.register c ∈ flood cap ++ [.broadcast 7 [0], .hub, .hub, .unregister 0] := by
        rw [hab.2]; simp
      simp [hfl] at this
  · rw [exec_append h1]
    have hge : ¬ (List.range cap).length < cap := by simp
    simp only [exec, step]
    rw [if_pos ⟨h2, by rw [h3]⟩]
    simp only [visit, h4, Bool.false_eq_true, if_false]
    rw [if_neg hge]
    simp [upd_same]

end Argo.Hub
