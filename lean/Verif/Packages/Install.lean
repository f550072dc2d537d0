import Verif.Packages.Props

set_option autoImplicit false

/-!
# C78, C84: installPackage
-/

namespace Argo.Packages

open Argo

variable (lim cap : Nat)

/-- Output whose lines are all shorter than the scanner's limit, `n` bytes of the first being scanned
already. -/
def Short (lim : Nat) : Nat → List Bool → Prop
  | _, [] => True
  | _, true :: rest => Short lim 0 rest
  | n, false :: rest => n + 1 < lim ∧ Short lim (n + 1) rest

/-- **C78** (the pipe): in every schedule, the standard output pipe exists before yarn is started, so yarn
never runs with its output discarded. -/
theorem C78_pipe_before_start (out : List Bool) (n : Nat) (s : Inst) (h : Run lim cap (.init out) n s) :
    s.running ≠ some false ∧ (s.running ≠ none → s.piped = true) := by
  have H : (s.g = .pipe ∨ s.piped = true) ∧ (s.m ≠ .send → s.piped = true) ∧ (s.g = .pipe → s.m = .send) ∧
      s.running ≠ some false ∧ (s.running ≠ none → s.piped = true) := by
    induction h with
    | refl => simp [Inst.init]
    | @tail t u k hrun hst ih =>
      obtain ⟨h1, h2, h3, h4, h5⟩ := ih
      cases hst with
      | pipe hg => simp_all
      | toG hg hm =>
        cases t with
        | mk g m piped running o b e c l =>
          cases g <;> cases m <;> simp_all [GPc.offer, MPc.offer, GPc.after, MPc.after]
      | toM hg hm =>
        cases t with
        | mk g m piped running o b e c l => cases m <;> simp_all [MPc.offer]
      | startOk hm => simp_all
      | startFail hm => simp_all
      | print b rest hr ho hb => simp_all
      | discard b rest hr ho => simp_all
      | exit hr ho he => simp_all
      | wait hm he => simp_all
      | waitFail hm hr => simp_all
      | scanLine rest hg hc hb => simp_all
      | scanByte rest hg hc hb hl => simp_all
      | tooLong rest hg hc hb hl => simp_all
      | eof hg hc he hb => simp_all
      | readClosed hg hc => simp_all
  exact H.2.2.2

/-- **C78** (the handshake): while installPackage is at its send, some step is possible, and after any two
steps it is past it: in every schedule the handshake is done, and then the goroutine is scanning. -/
theorem C78_handshake (out : List Bool) (n : Nat) (s : Inst) (h : Run lim cap (.init out) n s) :
    (s.m = .send → n < 2 ∧ ∃ t, Step lim cap s t) ∧ (n = 2 → s.g = .scan ∧ s.m = .start) := by
  have H : (n = 0 ∧ s = .init out) ∨ (n = 1 ∧ s = { Inst.init out with g := .recv, piped := true }) ∨
      (n = 2 ∧ s = { Inst.init out with g := .scan, m := .start, piped := true }) ∨ (2 < n ∧ s.m ≠ .send) := by
    induction h with
    | refl => exact Or.inl ⟨rfl, rfl⟩
    | @tail t u k hrun hst ih =>
      rcases ih with ⟨rfl, rfl⟩ | ⟨rfl, rfl⟩ | ⟨rfl, rfl⟩ | ⟨hn, hm⟩
      · cases hst <;> simp_all [Inst.init, GPc.offer]
      · cases hst <;> simp_all [Inst.init, GPc.offer, MPc.offer, GPc.after, MPc.after]
      · cases hst <;> simp_all [Inst.init, GPc.offer, MPc.offer, GPc.after, MPc.after]
      · right; right; right
        refine ⟨by omega, ?_⟩
        cases hst <;> simp_all
        all_goals (cases t with | mk g m _ _ _ _ _ _ _ => cases m <;> simp_all [MPc.offer])
  rcases H with ⟨rfl, rfl⟩ | ⟨rfl, rfl⟩ | ⟨rfl, rfl⟩ | ⟨hn, hm⟩
  · exact ⟨fun _ => ⟨by omega, _, .pipe _ rfl⟩, by simp⟩
  · exact ⟨fun _ => ⟨by omega, _, .toG _ rfl rfl⟩, by simp⟩
  · simp
  · exact ⟨fun h => absurd h hm, by omega⟩

/-- **C78** (the leak): in no schedule does the goroutine ever end. -/
theorem C78_leak (out : List Bool) (n : Nat) (s : Inst) (h : Run lim cap (.init out) n s) : s.g ≠ .done := by
  induction h with
  | refl => simp [Inst.init]
  | @tail t u k hrun hst ih =>
    have := ih
    cases hst with
    | toG hg hm =>
      cases t with | mk g m _ _ _ _ _ _ _ => cases g <;> simp_all [GPc.offer, GPc.after]
    | toM hg hm =>
      cases t with | mk g m _ _ _ _ _ _ _ => cases m <;> simp_all [MPc.offer]
    | _ => simp_all

/-- **C78** (where it leaks): in every schedule, once the goroutine has stopped scanning it is at its send to
the channel, nothing but a receive would let it end, and installPackage offers no receive, then or ever. -/
theorem C78_waits (out : List Bool) (n : Nat) (s : Inst) (h : Run lim cap (.init out) n s) (hm : s.m ≠ .send) :
    (s.g = .scan ∨ s.g = .send) ∧ s.m.offer = none ∧
      (s.g = .send → s.g.offer = some .snd ∧ s.g.after = .done ∧ ∀ t, Step lim cap s t → t.g = .send) := by
  have hg : s.m = .send ∨ s.g = .scan ∨ s.g = .send := by
    clear hm
    induction h with
    | refl => simp [Inst.init]
    | @tail t u k hrun hst ih =>
      cases hst with
      | toG hg hm =>
        cases t with | mk g m _ _ _ _ _ _ _ =>
          cases g <;> cases m <;> simp_all [GPc.offer, MPc.offer, GPc.after, MPc.after]
      | toM hg hm => cases t with | mk g m _ _ _ _ _ _ _ => cases m <;> simp_all [MPc.offer]
      | _ => simp_all
  have ho : s.m.offer = none := by cases hs : s.m <;> simp_all [MPc.offer]
  refine ⟨hg.resolve_left hm, ho, fun h => ⟨by rw [h]; rfl, by rw [h]; rfl, fun t ht => ?_⟩⟩
  cases ht with
  | toG _ h' => rw [ho] at h'; cases h'
  | toM _ h' => rw [ho] at h'; cases h'
  | _ => simp_all

/-- The number of steps left. -/
def left (s : Inst) : Nat :=
  2 * s.out.length + s.buf.length + (if s.exited then 0 else 1) +
    (match s.g with | .pipe => 4 | .recv => 3 | .scan => 2 | .send => 1 | .done => 0) +
    (match s.m with | .send => 3 | .start => 2 | .wait => 1 | .returned => 0)

theorem left_step (s t : Inst) (h : Step lim cap s t) : left t < left s := by
  cases h with
  | pipe hg => simp [left, hg]
  | toG hg hm =>
    cases s with | mk g m _ _ _ _ _ _ _ =>
      cases g <;> cases m <;> simp_all [left, GPc.offer, MPc.offer, GPc.after, MPc.after]
  | toM hg hm =>
    cases s with | mk g m _ _ _ _ _ _ _ => cases m <;> simp_all [MPc.offer]
  | startOk hm => simp [left, hm]
  | startFail hm => simp [left, hm]
  | print b rest hr ho hb => simp [left, ho]; omega
  | discard b rest hr ho => simp [left, ho]
  | exit hr ho he => simp [left, he]
  | wait hm he => simp [left, hm]
  | waitFail hm hr => simp [left, hm]
  | scanLine rest hg hc hb => simp [left, hb]
  | scanByte rest hg hc hb hl => simp [left, hb]
  | tooLong rest hg hc hb hl => simp [left, hb, hg]; omega
  | eof hg hc he hb => simp [left, hg]
  | readClosed hg hc => simp [left, hg]

theorem run_left (s t : Inst) (n : Nat) (h : Run lim cap s n t) : n + left t ≤ left s := by
  induction h with
  | refl => omega
  | @tail t u k hrun hst ih => have := left_step _ _ _ _ hst; omega

/-- What holds while lines are short. -/
structure Inv (lim : Nat) (s : Inst) : Prop where
  met : s.m = .send ∨ s.g = .scan ∨ s.g = .send
  notStarted : s.m = .send ∨ s.m = .start → s.running = none ∧ s.closed = false
  closed : s.closed = true → s.m = .returned ∨ s.running = none
  ended : s.g = .send → s.closed = true ∨ s.exited = true
  short : s.g ≠ .send → Short lim s.line (s.buf ++ s.out)

theorem inv_step (s t : Inst) (hr : s.running ≠ some false) (h : Step lim cap s t) (hi : Inv lim s) :
    Inv lim t := by
  obtain ⟨h1, h2, h3, h4, h5⟩ := hi
  cases h with
  | pipe hg => exact ⟨by simp_all, by simp_all, by simp_all, by simp_all, by simp_all⟩
  | toG hg hm =>
    cases s with | mk g m _ _ _ _ _ _ _ =>
      cases g <;> cases m <;> simp_all [GPc.offer, MPc.offer, GPc.after, MPc.after]
      exact ⟨by simp_all, by simp_all, by simp_all, by simp_all, by simp_all⟩
  | toM hg hm => 
    cases s with | mk g m _ _ _ _ _ _ _ => cases m <;> simp_all [MPc.offer]
  | startOk hm => exact ⟨by simp_all, by simp_all, by simp_all, by simp_all, by simp_all⟩
  | startFail hm => exact ⟨by simp_all, by simp_all, by simp_all, by simp_all, by simp_all⟩
  | print b rest hr ho hb => exact ⟨by simp_all, by simp_all, by simp_all, by simp_all, by simp_all⟩
  | discard b rest hr' ho => exact absurd hr' hr
  | exit hr ho he => exact ⟨by simp_all, by simp_all, by simp_all, by simp_all, by simp_all⟩
  | wait hm he => exact ⟨by simp_all, by simp_all, by simp_all, by simp_all, by simp_all⟩
  | waitFail hm hr => exact ⟨by simp_all, by simp_all, by simp_all, by simp_all, by simp_all⟩
  | scanLine rest hg hc hb =>
    have := h5 (by simp [hg])
    rw [hb] at this
    exact ⟨by simp_all, by simp_all, by simp_all, by simp_all, fun _ => this⟩
  | scanByte rest hg hc hb hl =>
    have := h5 (by simp [hg])
    rw [hb] at this
    exact ⟨by simp_all, by simp_all, by simp_all, by simp_all, fun _ => this.2⟩
  | tooLong rest hg hc hb hl =>
    have := h5 (by simp [hg])
    rw [hb] at this
    have := this.1
    omega
  | eof hg hc he hb => exact ⟨by simp_all, by simp_all, by simp_all, by simp_all, by simp_all⟩
  | readClosed hg hc => exact ⟨by simp_all, by simp_all, by simp_all, by simp_all, by simp_all⟩

/-- **C84** (partial: installPackage returns): no schedule has more than a fixed number of steps; and if yarn prints
no line as long as the scanner's limit, then as long as installPackage has not returned some step is
possible, so it returns in every schedule in which goroutines that can run do run.
Missing: longer lines (`C84_hang_false`). -/
theorem C84_returns_partial (hcap : 0 < cap) (out : List Bool) (n : Nat) (s : Inst)
    (h : Run lim cap (.init out) n s) :
    n ≤ 2 * out.length + 8 ∧ (Short lim 0 out → s.m ≠ .returned → ∃ t, Step lim cap s t) := by
  refine ⟨?_, fun hs hm => ?_⟩
  · have := run_left _ _ _ _ _ h
    simp [left, Inst.init] at this
    omega
  · have hi : Inv lim s := by
      clear hm
      induction h with
      | refl => exact ⟨by simp [Inst.init], by simp [Inst.init], by simp [Inst.init],
          by simp [Inst.init], by simpa [Inst.init] using hs⟩
      | @tail t u k hrun hst ih =>
          exact inv_step _ _ _ _ (C78_pipe_before_start lim cap out _ _ hrun).1 hst (ih)
    have hp := C78_pipe_before_start lim cap out _ _ h
    have hh := (C78_handshake lim cap out _ _ h).1
    obtain ⟨h1, h2, h3, h4, h5⟩ := hi
    cases hm' : s.m with
    | returned => exact absurd hm' hm
    | send => exact (hh hm').2
    | start => exact ⟨_, .startOk _ hm'⟩
    | wait =>
      cases hr : s.running with
      | none => exact ⟨_, .waitFail _ hm' hr⟩
      | some b =>
        cases b with
        | false => exact absurd hr hp.1
        | true =>
          cases he : s.exited with
          | true => exact ⟨_, .wait _ hm' he⟩
          | false =>
            cases ho : s.out with
            | nil => exact ⟨_, .exit _ (by simp [hr]) ho he⟩
            | cons b rest =>
              by_cases hb : s.buf.length < cap
              · exact ⟨_, .print _ b rest hr ho hb⟩
              · have hc : s.closed = false := by
                  by_contra hc
                  rcases h3 (by simpa using hc) with h | h
                  · exact absurd h (by simp [hm'])
                  · exact absurd h (by simp [hr])
                have hg : s.g = .scan := by
                  rcases h1 with h | h | h
                  · exact absurd h (by simp [hm'])
                  · exact h
                  · rcases h4 h with h | h
                    · exact absurd h (by simp [hc])
                    · exact absurd h (by simp [he])
                cases hbuf : s.buf with
                | nil => simp [hbuf] at hb; omega
                | cons c cs =>
                  cases c with
                  | true => exact ⟨_, .scanLine _ cs hg hc hbuf⟩
                  | false =>
                    by_cases hl : s.line + 1 < lim
                    · exact ⟨_, .scanByte _ cs hg hc hbuf hl⟩
                    · exact ⟨_, .tooLong _ cs hg hc hbuf (by omega)⟩

/-- What holds when the output begins with more than the scanner and the pipe take of one line. -/
structure Stuck (lim cap : Nat) (rest : List Bool) (s : Inst) : Prop where
  left : ∃ j, s.out = List.replicate j false ++ rest ∧ j + s.buf.length + s.line = lim + cap + 1
  plain : ∀ b ∈ s.buf, b = false
  buf : s.buf.length ≤ cap
  line : s.line ≤ lim
  ended : s.g ≠ .send → s.line < lim
  exited : s.exited = false

theorem Stuck.step {rest : List Bool} {s t : Inst} (hr : s.running ≠ some false) (hs : Stuck lim cap rest s)
    (h : Step lim cap s t) : Stuck lim cap rest t := by
  obtain ⟨⟨j, h1, h2⟩, h3, h4, h5, h6, h7⟩ := hs
  cases h with
  | pipe hg => exact ⟨⟨j, h1, h2⟩, h3, h4, h5, by simp_all, h7⟩
  | toG hg hm =>
    refine ⟨⟨j, h1, h2⟩, h3, h4, h5, ?_, h7⟩
    cases s with | mk g m _ _ _ _ _ _ _ => cases g <;> simp_all [GPc.offer, GPc.after]
  | toM hg hm => cases s with | mk g m _ _ _ _ _ _ _ => cases m <;> simp_all [MPc.offer]
  | startOk hm => exact ⟨⟨j, h1, h2⟩, h3, h4, h5, h6, h7⟩
  | startFail hm => exact ⟨⟨j, h1, h2⟩, h3, h4, h5, h6, h7⟩
  | print b rest' hr ho hb =>
    cases j with
    | zero => omega
    | succ j =>
      rw [h1, List.replicate_succ, List.cons_append] at ho
      cases ho
      refine ⟨⟨j, rfl, by simp; omega⟩, ?_, by simp; omega, h5, h6, h7⟩
      intro b hb
      rcases List.mem_append.1 hb with hb | hb
      · exact h3 b hb
      · simpa using hb
  | discard b rest' hr' ho => exact absurd hr' hr
  | exit hr ho he =>
    cases j with
    | zero => omega
    | succ j => rw [h1, List.replicate_succ] at ho; cases ho
  | wait hm he => rw [h7] at he; cases he
  | waitFail hm hr => exact ⟨⟨j, h1, h2⟩, h3, h4, h5, h6, h7⟩
  | scanLine r hg hc hb => exact absurd (h3 true (by rw [hb]; simp)) (by simp)
  | scanByte r hg hc hb hl =>
    rw [hb] at h2 h3 h4
    simp only [List.length_cons] at h2 h4
    exact ⟨⟨j, h1, by simp only; omega⟩, fun b hb => h3 b (by simp [hb]), by simp only; omega,
      by simp only; omega, fun _ => hl, h7⟩
  | tooLong r hg hc hb hl =>
    have := h6 (by simp [hg])
    rw [hb] at h2 h3 h4
    simp only [List.length_cons] at h2 h4
    exact ⟨⟨j, h1, by simp only; omega⟩, fun b hb => h3 b (by simp [hb]), by simp only; omega,
      by simp only; omega, fun h => absurd rfl h, h7⟩
  | eof hg hc he hb => rw [h7] at he; cases he
  | readClosed hg hc => 
    exact ⟨⟨j, h1, h2⟩, h3, h4, h5, fun h => absurd rfl h, h7⟩

/-- **C84** (the hang): if yarn starts and prints a line longer than the scanner's limit plus the capacity
of a pipe, installPackage returns in no schedule: nobody reads the rest, yarn blocks, and the request is
never answered. -/
theorem C84_hang_false (hlim : 0 < lim) (rest : List Bool) (n : Nat) (s : Inst)
    (h : Run lim cap (.init (List.replicate (lim + cap + 1) false ++ rest)) n s)
    (hr : s.running ≠ none) : s.m ≠ .returned ∧ s.exited = false := by
  have H : Stuck lim cap rest s ∧ (s.m = .returned → s.running = none) ∧
      (s.m = .send ∨ s.m = .start → s.running = none) := by
    clear hr
    induction h with
    | refl =>
      exact ⟨⟨⟨lim + cap + 1, rfl, by simp [Inst.init]⟩, by simp [Inst.init], by simp [Inst.init],
        by simp [Inst.init], by simpa [Inst.init] using hlim, rfl⟩, by simp [Inst.init], by simp [Inst.init]⟩
    | @tail t u k hrun hst ih =>
      obtain ⟨h1, h2, h3⟩ := ih
      have hp := (C78_pipe_before_start lim cap _ _ _ hrun).1
      refine ⟨h1.step lim cap hp hst, ?_⟩
      cases hst with
      | toG hg hm =>
        cases t with | mk g m _ _ _ _ _ _ _ => cases m <;> simp_all [MPc.offer, MPc.after]
      | toM hg hm =>
        cases t with | mk g m _ _ _ _ _ _ _ => cases m <;> simp_all [MPc.offer, MPc.after]
      | wait hm he => rw [h1.exited] at he; cases he
      | _ => simp_all
  exact ⟨fun h => hr (H.2.1 h), H.1.exited⟩

-- non-vacuity: a whole installation, in a schedule in which the output is read after yarn has exited
example : ∃ n s, Run 65536 65536 (.init [false, false, true]) n s ∧ s.m = .returned ∧ s.g = .send ∧
    s.running = some true := by
  refine ⟨_, _, .tail (.tail (.tail (.tail (.tail (.tail (.tail (.tail (.tail (.refl _) (.pipe _ rfl))
    (.toG _ rfl rfl)) (.startOk _ rfl)) (.print _ _ _ rfl rfl (by decide))) (.print _ _ _ rfl rfl (by decide)))
    (.print _ _ _ rfl rfl (by decide))) (.exit _ (by decide) rfl rfl)) (.wait _ rfl rfl))
    (.readClosed _ rfl rfl), rfl, rfl, rfl⟩
example : Short 65536 0 [false, false, true] := by simp [Short]

end Argo.Packages
