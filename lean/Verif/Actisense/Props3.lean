import Verif.Actisense.Props2
import Verif.Heard

set_option autoImplicit false

/-!
# Package `actisense`: every sequence of port outcomes (C11)

What repeated `Read` calls return is characterised for arbitrary sequences of bytes, read errors and empty
reads.
-/

namespace Argo.Actisense
open NgtSpec

/-! ## Specification -/

/-- What may be seen of byte strings separated by read errors: each is treated by itself, by the frames
delimited in it; a crash ends everything. -/
inductive Heard : List (List Byte) → List Seen → Prop where
  | last {bs o} : Outcome (frames bs) o → Heard [bs] o
  | next {bs segs o o'} : Outcome (frames bs) o → Seen.crash ∉ o → Heard segs o' →
      Heard (bs :: segs) (o ++ .ioErr :: o')
  | died {bs segs o} : Outcome (frames bs) o → Seen.crash ∈ o → Heard (bs :: segs) o

/-! ## Proof -/

/-- Empty reads replaced by the byte before them. -/
def expand (last : Byte) : List Ev → List Ev
  | [] => []
  | .fail :: es => .fail :: expand 0 es
  | .byte b :: es => .byte b :: expand b es
  | .empty :: es => .byte last :: expand last es

theorem byteStep_rx (g : Nat → Nat) (s : RState) (b : Byte) {s' : RState} (h : byteStep g s b = .loop s') :
    s'.rx = s.rx := by
  unfold byteStep at h
  cases hs : s.state <;> rw [hs] at h <;> simp only [] at h
  · split at h <;> injection h with h <;> rw [← h]
  · split at h
    · split at h
      · cases h
      · cases h
      · injection h with h; rw [← h]
    · split at h
      · injection h with h; rw [← h]
      · split at h <;> injection h with h <;> rw [← h]
  · split at h <;> injection h with h <;> rw [← h]

theorem byteStep_ret (g : Nat → Nat) (s : RState) (b : Byte) {m : RawMessage} (h : byteStep g s b = .ret m) :
    b = 0x03 := by
  unfold byteStep at h
  cases hs : s.state <;> rw [hs] at h <;> simp only [] at h
  · split at h <;> cases h
  · split at h
    · rename_i hb; simpa [ETX] using hb
    · split at h
      · cases h
      · split at h <;> cases h
  · split at h <;> cases h

theorem session_expand (g : Nat → Nat) (evs : List Ev) : ∀ (s : RState) (last : Byte),
    (s.rx = last ∨ (s.buf = Slice.nil ∧ s.state = .MsgStart ∧ s.rx ≠ 0x10 ∧ last ≠ 0x10)) →
    (session g s evs).1 = (session g s (expand last evs)).1 := by
  induction evs with
  | nil => intro s last _; rfl
  | cons e evs ih =>
    intro s last h
    cases e with
    | fail =>
      show _ :: (session g RState.init evs).1 = _ :: (session g RState.init (expand 0 evs)).1
      rw [ih RState.init 0 (Or.inl rfl)]
    | byte b =>
      rw [expand, session, session]
      cases hb : byteStep g { s with rx := b } b with
      | loop s' => exact ih s' b (Or.inl (byteStep_rx g _ _ hb))
      | ret m =>
        show _ :: (session g RState.init evs).1 = _ :: (session g RState.init (expand b evs)).1
        rw [ih RState.init b (Or.inr ⟨rfl, rfl, by decide, by rw [byteStep_ret g _ _ hb]; decide⟩)]
      | crash e => rfl
    | empty =>
      rw [expand]
      rcases h with h | ⟨h1, h2, h3, h4⟩
      · rw [session, session]
        have hs : ({ s with rx := last } : RState) = s := by rw [← h]
        rw [hs, ← h]
        cases hb : byteStep g s s.rx with
        | loop s' => exact ih s' s.rx (Or.inl (byteStep_rx g _ _ hb))
        | ret m =>
          show _ :: (session g RState.init evs).1 = _ :: (session g RState.init (expand s.rx evs)).1
          rw [ih RState.init s.rx (Or.inr ⟨rfl, rfl, by decide, by rw [byteStep_ret g _ _ hb]; decide⟩)]
        | crash e => rfl
      · obtain ⟨buf, rx, st⟩ := s
        simp only at h1 h2 h3
        subst h1 h2
        have e1 : (session g ⟨Slice.nil, rx, .MsgStart⟩ (.empty :: evs)).1 = (session g ⟨Slice.nil, rx, .MsgStart⟩ evs).1 := by
          simp [session, byteStep, DLE, h3]
        have e2 : (session g ⟨Slice.nil, rx, .MsgStart⟩ (.byte last :: expand last evs)).1 =
            (session g ⟨Slice.nil, last, .MsgStart⟩ (expand last evs)).1 := by
          simp [session, byteStep, DLE, h4]
        rw [e1, e2, ← ih ⟨Slice.nil, last, .MsgStart⟩ last (Or.inl rfl), session_clean g rx h3,
          session_clean g last h4]

theorem reads_expand (g : Nat → Nat) (evs : List Ev) : reads g evs = reads g (expand 0 evs) := by
  unfold reads
  rw [session_expand g evs RState.init 0 (Or.inl rfl)]

theorem heard_expand (evs : List Ev) : ∀ (last : Byte) (cur : List Byte),
    heard last cur (expand last evs) = heard last cur evs := by
  induction evs with
  | nil => intro last cur; rfl
  | cons e evs ih =>
    intro last cur
    cases e with
    | fail => exact congrArg (List.cons cur) (ih 0 [])
    | byte b => exact ih b (cur ++ [b])
    | empty => exact ih last (cur ++ [last])

/-- No empty reads. -/
def NoEmpty (evs : List Ev) : Prop := Ev.empty ∉ evs

theorem expand_noEmpty (evs : List Ev) : ∀ last, NoEmpty (expand last evs) := by
  induction evs with
  | nil => intro last h; cases h
  | cons e evs ih =>
    intro last h
    cases e <;> rcases List.mem_cons.mp h with h | h <;> first | cases h | exact ih _ h

theorem session_crash_append (g : Nat → Nat) (a b : List Ev) : ∀ (s : RState), (session g s a).2 = none →
    (session g s (a ++ b)).1 = (session g s a).1 := by
  induction a with
  | nil => intro s h; cases h
  | cons e a ih =>
    intro s h
    cases e with
    | fail =>
      have := ih RState.init h
      show _ :: (session g RState.init (a ++ b)).1 = _ :: (session g RState.init a).1
      rw [this]
    | byte x =>
      rw [List.cons_append, session, session]
      rw [session] at h
      cases hb : byteStep g { s with rx := x } x with
      | loop s' => rw [hb] at h; exact ih s' h
      | ret m =>
        rw [hb] at h
        show _ :: (session g RState.init (a ++ b)).1 = _ :: (session g RState.init a).1
        rw [ih RState.init h]
      | crash e => rfl
    | empty =>
      rw [List.cons_append, session, session]
      rw [session] at h
      cases hb : byteStep g s s.rx with
      | loop s' => rw [hb] at h; exact ih s' h
      | ret m =>
        rw [hb] at h
        show _ :: (session g RState.init (a ++ b)).1 = _ :: (session g RState.init a).1
        rw [ih RState.init h]
      | crash e => rfl

theorem crash_none (g : Nat → Nat) (evs : List Ev) : ∀ (s : RState), Seen.crash ∈ (session g s evs).1.map Obs.seen →
    (session g s evs).2 = none := by
  induction evs with
  | nil => intro s h; cases h
  | cons e evs ih =>
    intro s h
    cases e with
    | fail =>
      rcases List.mem_cons.mp h with h | h
      · cases h
      · exact ih RState.init h
    | byte x =>
      rw [session] at h ⊢
      cases hb : byteStep g { s with rx := x } x with
      | loop s' => rw [hb] at h; exact ih s' h
      | ret m =>
        rw [hb] at h
        rcases List.mem_cons.mp h with h | h
        · cases h
        · exact ih RState.init h
      | crash e => rfl
    | empty =>
      rw [session] at h ⊢
      cases hb : byteStep g s s.rx with
      | loop s' => rw [hb] at h; exact ih s' h
      | ret m =>
        rw [hb] at h
        rcases List.mem_cons.mp h with h | h
        · cases h
        · exact ih RState.init h
      | crash e => rfl

theorem reads_noEmpty (g : Nat → Nat) (evs : List Ev) : ∀ (last : Byte) (cur : List Byte), NoEmpty evs →
    Heard (heard last cur evs) (reads g (stream cur ++ evs)) := by
  induction evs with
  | nil =>
    intro last cur _
    rw [List.append_nil]
    exact .last (session_outcome g RState.init cur)
  | cons e evs ih =>
    intro last cur h
    have h' : NoEmpty evs := fun hc => h (List.mem_cons_of_mem _ hc)
    cases e with
    | empty => exact absurd List.mem_cons_self h
    | byte b =>
      have := ih b (cur ++ [b]) h'
      simpa [stream, heard] using this
    | fail =>
      by_cases hc : Seen.crash ∈ reads g (stream cur)
      · have : reads g (stream cur ++ .fail :: evs) = reads g (stream cur) := by
          unfold reads
          rw [session_crash_append g _ _ _ (crash_none g _ _ hc)]
        rw [this]
        exact .died (session_outcome g RState.init cur) hc
      · rw [C04_error_resets g (stream cur) evs hc]
        exact .next (session_outcome g RState.init cur) hc (ih 0 [] h')

/-- **C11** (the exact effect of empty reads): for every sequence of bytes, read errors and empty reads, what
successive Reads return is what the delimited frames of the byte strings between errors allow, each empty
read counting as the byte before it once more. -/
theorem C11_exact (g : Nat → Nat) (evs : List Ev) : Heard (heard 0 [] evs) (reads g evs) := by
  rw [reads_expand]
  have := reads_noEmpty g (expand 0 evs) 0 [] (expand_noEmpty evs 0)
  rw [heard_expand] at this
  exact this

/-- **C05** (any history): whatever the port does, a message is returned only for a delimited frame whose
unescaped bytes sum to zero. -/
theorem C05_history (g : Nat → Nat) (evs : List Ev) (v : MsgView) (h : Seen.msg v ∈ reads g evs) :
    ∃ bs ∈ heard 0 [] evs, ∃ c ∈ frames bs, total c = 0 ∧ (verdict c = .accept v ∨ verdict c = .overrun) := by
  have key : ∀ {segs o}, Heard segs o → Seen.msg v ∈ o → ∃ bs ∈ segs, ∃ c ∈ frames bs,
      (verdict c = .accept v ∨ verdict c = .overrun) := by
    intro segs o hh
    induction hh with
    | last ho =>
      intro hm
      obtain ⟨c, hc, hv⟩ := outcome_msg ho hm
      exact ⟨_, by simp, c, hc, hv.imp id And.left⟩
    | next ho _ _ ih =>
      intro hm
      rcases List.mem_append.mp hm with hm | hm
      · obtain ⟨c, hc, hv⟩ := outcome_msg ho hm
        exact ⟨_, by simp, c, hc, hv.imp id And.left⟩
      · rcases List.mem_cons.mp hm with hm | hm
        · cases hm
        · obtain ⟨bs, hb, r⟩ := ih hm
          exact ⟨bs, by simp [hb], r⟩
    | died ho _ =>
      intro hm
      obtain ⟨c, hc, hv⟩ := outcome_msg ho hm
      exact ⟨_, by simp, c, hc, hv.imp id And.left⟩
  obtain ⟨bs, hb, c, hc, hv⟩ := key (C11_exact g evs) h
  refine ⟨bs, hb, c, hc, (verdict_checked ?_).2, hv⟩
  rcases hv with hv | hv <;> rw [hv] <;> simp

/-- An error in the middle of a frame, then the frame again with an empty read between frames: one message,
after the error. -/
example : heard 0 [] (stream [0x10, 0x02, 0x93] ++ [.fail] ++ stream (wire sampleContent) ++ [.empty]) =
      [[0x10, 0x02, 0x93], wire sampleContent ++ [0x03]] ∧
    ∃ v, reads (fun _ => 0) (stream [0x10, 0x02, 0x93] ++ [.fail] ++ stream (wire sampleContent) ++ [.empty]) =
      [.ioErr, .msg v] := ⟨by decide +kernel, _, rfl⟩

end Argo.Actisense
