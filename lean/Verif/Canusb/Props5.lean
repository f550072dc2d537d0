import Verif.Canusb.Props4

set_option autoImplicit false

/-!
# Properties of package `canusb`: line reader, address claim, open and close (C27–C32, C80)
-/

namespace Argo.Canusb
open CanSpec

/-! ## C27 -/

/-- One of the characters that start a frame. -/
def FrameStart (b : Byte) : Prop :=
  b = 't'.toUInt8 ∨ b = 'T'.toUInt8 ∨ b = 'r'.toUInt8 ∨ b = 'R'.toUInt8

theorem isStart_iff (b : Byte) : isStart b = true ↔ FrameStart b := by
  simp only [isStart, Bool.or_eq_true, beq_iff_eq, FrameStart]
  constructor
  · rintro (((h | h) | h) | h)
    · exact Or.inl h
    · exact Or.inr (Or.inl h)
    · exact Or.inr (Or.inr (Or.inl h))
    · exact Or.inr (Or.inr (Or.inr h))
  · rintro (h | h | h | h)
    · exact Or.inl (Or.inl (Or.inl h))
    · exact Or.inl (Or.inl (Or.inr h))
    · exact Or.inl (Or.inr h)
    · exact Or.inr h

/-- `t` is the text accumulated after reading `seen`: everything from the last frame-start character
on, carriage returns left out. -/
def Pending (seen t : List Byte) : Prop :=
  ∃ pre c suf, seen = pre ++ c :: suf ∧ FrameStart c ∧ (∀ b ∈ suf, ¬ FrameStart b) ∧
    t = c :: suf.filter (· != 13)

/-- How one `Read` on an open port consumes the bytes `todo` after having consumed `seen`. -/
inductive Reads (fp : List Nat) : List Byte → Partials → List Byte → ReadResult → List Byte → Partials → Prop where
  | waiting {seen m} : Reads fp seen m [] .waiting [] m
  /-- any byte other than a carriage return, or anything before the first frame start, is only
  accumulated -/
  | skip {seen m b todo r rest mf} : (b ≠ 13 ∨ ∀ x ∈ seen, ¬ FrameStart x) →
      Reads fp (seen ++ [b]) m todo r rest mf → Reads fp seen m (b :: todo) r rest mf
  /-- a carriage return whose pending text is accepted returns the message -/
  | accept {seen m t sp f m' todo} : Pending seen t → frameReceived fp m ⟨t, sp⟩ = .ok (some f, m') →
      Reads fp seen m (13 :: todo) (.msg f.out) todo m'
  /-- a carriage return whose pending text is rejected: reading goes on, the text is kept -/
  | reject {seen m t sp m' todo r rest mf} : Pending seen t → frameReceived fp m ⟨t, sp⟩ = .ok (none, m') →
      Reads fp (seen ++ [13]) m' todo r rest mf → Reads fp seen m (13 :: todo) r rest mf
  /-- a carriage return whose pending text crashes the parser -/
  | crash {seen m t sp e todo} : Pending seen t → frameReceived fp m ⟨t, sp⟩ = .error e →
      Reads fp seen m (13 :: todo) .crash todo m

theorem Pending.start {seen : List Byte} {c : Byte} (h : FrameStart c) : Pending (seen ++ [c]) [c] :=
  ⟨seen, c, [], rfl, h, by simp, rfl⟩

theorem Pending.more {seen t : List Byte} {b : Byte} (h : Pending seen t) (hb : ¬ FrameStart b)
    (h13 : b ≠ 13) : Pending (seen ++ [b]) (t ++ [b]) := by
  obtain ⟨pre, c, suf, rfl, h1, h2, rfl⟩ := h
  refine ⟨pre, c, suf ++ [b], by simp, h1, ?_, ?_⟩
  · intro x hx
    rcases List.mem_append.1 hx with hx | hx
    · exact h2 x hx
    · rw [List.mem_singleton.1 hx]; exact hb
  · simp [h13]

theorem Pending.cr {seen t : List Byte} (h : Pending seen t) : Pending (seen ++ [13]) t := by
  obtain ⟨pre, c, suf, rfl, h1, h2, rfl⟩ := h
  refine ⟨pre, c, suf ++ [13], by simp, h1, ?_, ?_⟩
  · intro x hx
    rcases List.mem_append.1 hx with hx | hx
    · exact h2 x hx
    · rw [List.mem_singleton.1 hx]; unfold FrameStart; decide
  · simp

theorem readLoop_reads (g : Nat → Nat) (fp : List Nat) (todo : List Byte) :
    ∀ (seen : List Byte) (s : RState) (m : Partials),
      (if s.sof then Pending seen s.msg.vis else ∀ x ∈ seen, ¬ FrameStart x) →
      ∃ r rest mf, readLoop g fp s m (todo.map Ev.byte) = (r, rest.map Ev.byte, mf) ∧
        Reads fp seen m todo r rest mf := by
  induction todo with
  | nil => intro seen s m h; exact ⟨.waiting, [], m, rfl, .waiting⟩
  | cons b todo ih =>
    intro seen s m h
    rw [List.map_cons, readLoop]
    unfold byteStep
    by_cases hs : isStart b = true
    · rw [if_pos hs]
      have hst := (isStart_iff b).1 hs
      have hn : b ≠ 13 := by
        intro e; subst e; cases hs
      obtain ⟨r, rest, mf, h1, h2⟩ := ih (seen ++ [b])
        { rx := b, msg := Slice.nil.push g b, sof := true } m (by
          simp only [if_true, Slice.push_vis, Slice.nil_vis, List.nil_append]
          exact Pending.start hst)
      exact ⟨r, rest, mf, h1, .skip (Or.inl hn) h2⟩
    · rw [if_neg hs]
      have hst : ¬ FrameStart b := fun e => hs ((isStart_iff b).2 e)
      cases hsof : s.sof with
      | false =>
        simp only [hsof, Bool.and_false, Bool.false_eq_true, if_false] at h ⊢
        obtain ⟨r, rest, mf, h1, h2⟩ := ih (seen ++ [b]) { s with rx := b } m (by
          simp only [hsof, Bool.false_eq_true, if_false]
          intro x hx
          rcases List.mem_append.1 hx with hx | hx
          · exact h x hx
          · rw [List.mem_singleton.1 hx]; exact hst)
        rw [hsof] at h1
        exact ⟨r, rest, mf, h1, .skip (Or.inr h) h2⟩
      | true =>
        simp only [hsof, if_true, Bool.and_true] at h ⊢
        by_cases hb : b = 13
        · subst hb
          simp only [beq_self_eq_true, if_true]
          cases hf : frameReceived fp m s.msg with
          | error e => exact ⟨.crash, todo, m, rfl, .crash (sp := s.msg.spare) h hf⟩
          | ok y =>
            obtain ⟨o, m'⟩ := y
            cases o with
            | some f => exact ⟨.msg f.out, todo, m', rfl, .accept (sp := s.msg.spare) h hf⟩
            | none =>
              obtain ⟨r, rest, mf, h1, h2⟩ := ih (seen ++ [13]) { s with rx := 13 } m' (by
                simp only [hsof, if_true]; exact h.cr)
              rw [hsof] at h1
              exact ⟨r, rest, mf, h1, .reject (sp := s.msg.spare) h hf h2⟩
        · have : (b == 13) = false := by simpa using hb
          simp only [this, Bool.false_eq_true, if_false]
          obtain ⟨r, rest, mf, h1, h2⟩ := ih (seen ++ [b]) { rx := b, msg := s.msg.push g b, sof := true } m (by
            simp only [if_true, Slice.push_vis]; exact h.more hst hb)
          exact ⟨r, rest, mf, h1, .skip (Or.inl hb) h2⟩

/-- C27: `Read` on an open port consumes any byte stream as `Reads` says, however `append` grows its
buffer. -/
theorem C27_read (g : Nat → Nat) (fp : List Nat) (m : Partials) (bytes : List Byte) :
    ∃ r rest mf, Read g fp true m (bytes.map Ev.byte) = (r, rest.map Ev.byte, mf) ∧
      Reads fp [] m bytes r rest mf := by
  simp only [Read, if_true]
  exact readLoop_reads g fp bytes [] RState.init m (by simp [RState.init])

/-- A port error ends the `Read` with that error, leaving the partial messages untouched. -/
theorem C27_error (g : Nat → Nat) (fp : List Nat) (m : Partials) (evs : List Ev) :
    Read g fp true m (.fail :: evs) = (.ioErr, evs, m) := rfl

/-- The buffer after appending the bytes of `l` to a nil slice. -/
def grown (g : Nat → Nat) (l : List Byte) : Slice := l.foldl (Slice.push g) Slice.nil

theorem foldl_push_vis (g : Nat → Nat) (l : List Byte) : ∀ s : Slice,
    (l.foldl (Slice.push g) s).vis = s.vis ++ l := by
  induction l with
  | nil => intro s; simp
  | cons b l ih => intro s; rw [List.foldl_cons, ih]; simp

theorem grown_vis (g : Nat → Nat) (l : List Byte) : (grown g l).vis = l := by
  rw [grown, foldl_push_vis]; rfl

/-- A line as the adapter sends it: a frame-start character, then neither frame starts nor carriage
returns. -/
def IsLine (l : List Byte) : Prop :=
  ∃ c t, l = c :: t ∧ FrameStart c ∧ ∀ b ∈ t, ¬ FrameStart b ∧ b ≠ 13

theorem session_body (g : Nat → Nat) (fp : List Nat) (t : List Byte) (ht : ∀ b ∈ t, ¬ FrameStart b ∧ b ≠ 13) :
    ∀ (s : RState) (m : Partials) (evs : List Ev), s.sof = true →
      ∃ rx, session g fp s m (t.map Ev.byte ++ evs)
        = session g fp ⟨rx, t.foldl (Slice.push g) s.msg, true⟩ m evs := by
  induction t with
  | nil => intro s m evs hs; refine ⟨s.rx, ?_⟩; cases s; simp only at hs; subst hs; rfl
  | cons b t ih =>
    intro s m evs hs
    obtain ⟨h1, h2⟩ := ht b (by simp)
    have e1 : isStart b = false := by
      cases h : isStart b with
      | false => rfl
      | true => exact absurd ((isStart_iff b).1 h) h1
    have e2 : (b == 13) = false := by simpa using h2
    obtain ⟨rx, hr⟩ := ih (fun b hb => ht b (by simp [hb])) ⟨b, s.msg.push g b, true⟩ m evs rfl
    refine ⟨rx, ?_⟩
    rw [List.map_cons, List.cons_append, session]
    simp only [byteStep, e1, e2, hs, Bool.false_eq_true, if_false, Bool.false_and, if_true, hr,
      List.foldl_cons]

/-- C27, whole sessions: repeated `Read`s over a stream of lines, each ended by a carriage return,
return exactly the messages that receiving the lines one by one delivers, in order; the reader never
loses or merges lines, whatever it was doing before the first line. -/
theorem C27_session (g : Nat → Nat) (fp : List Nat) (lines : List (List Byte))
    (hl : ∀ l ∈ lines, IsLine l) : ∀ (s : RState) (m : Partials) (outs : List (Option MsgView)) (m' : Partials),
    receive fp m (lines.map (grown g)) = .ok (outs, m') →
    ∃ s', session g fp s m ((lines.flatMap fun l => l ++ [13]).map Ev.byte)
      = ((outs.filterMap id).map Obs.msg, some (s', m')) := by
  induction lines with
  | nil =>
    intro s m outs m' h
    simp only [List.map_nil, receive] at h
    injection h with h
    simp only [Prod.mk.injEq] at h
    obtain ⟨rfl, rfl⟩ := h
    exact ⟨s, rfl⟩
  | cons l lines ih =>
    intro s m outs m' h
    obtain ⟨c, t, rfl, hc, ht⟩ := hl l (by simp)
    have hcs := (isStart_iff c).2 hc
    rw [List.map_cons, receive] at h
    simp only [bind, Except.bind, pure, Except.pure] at h
    cases hr : frameReceived fp m (grown g (c :: t)) with
    | error e => rw [hr] at h; cases h
    | ok y =>
      obtain ⟨o, m1⟩ := y
      rw [hr] at h
      simp only [] at h
      cases hr2 : receive fp m1 (lines.map (grown g)) with
      | error e => rw [hr2] at h; cases h
      | ok z =>
        obtain ⟨os, m2⟩ := z
        rw [hr2] at h
        simp only [Except.ok.injEq, Prod.mk.injEq] at h
        obtain ⟨rfl, rfl⟩ := h
        have hsplit : ((List.flatMap (fun l => l ++ [13]) ((c :: t) :: lines)).map Ev.byte)
            = Ev.byte c :: (t.map Ev.byte ++ Ev.byte 13 ::
                (List.flatMap (fun l => l ++ [13]) lines).map Ev.byte) := by
          simp [List.flatMap_cons]
        rw [hsplit, session]
        simp only [byteStep, hcs, if_true]
        obtain ⟨rx, hb⟩ := session_body g fp t ht ⟨c, Slice.nil.push g c, true⟩ m
          (Ev.byte 13 :: (List.flatMap (fun l => l ++ [13]) lines).map Ev.byte) rfl
        rw [hb, session]
        have hgr : t.foldl (Slice.push g) (Slice.nil.push g c) = grown g (c :: t) := rfl
        have h13 : isStart 13 = false := by decide
        simp only [byteStep, h13, Bool.false_eq_true, if_false, beq_self_eq_true, Bool.and_self, if_true,
          hgr, hr]
        cases o with
        | none =>
          obtain ⟨s', hs'⟩ := ih (fun l hl' => hl l (by simp [hl'])) ⟨13, grown g (c :: t), true⟩ m1 os m2 hr2
          exact ⟨s', by simp [hs']⟩
        | some f =>
          obtain ⟨s', hs'⟩ := ih (fun l hl' => hl l (by simp [hl'])) RState.init m1 os m2 hr2
          exact ⟨s', by simp [hs']⟩

/-- `session` is repeated `Read`: the first result, then the session that starts with the next `Read`. -/
theorem session_read (g : Nat → Nat) (fp : List Nat) (evs : List Ev) : ∀ (s : RState) (m : Partials),
    session g fp s m evs = match readLoop g fp s m evs with
      | (.msg v, rest, m') =>
        ((Obs.msg v :: (session g fp RState.init m' rest).1), (session g fp RState.init m' rest).2)
      | (.ioErr, rest, m') =>
        ((Obs.ioErr :: (session g fp RState.init m' rest).1), (session g fp RState.init m' rest).2)
      | (.crash, _, _) => ([Obs.crash], none)
      | (_, _, _) => ([], (session g fp s m evs).2) := by
  induction evs with
  | nil => intro s m; rfl
  | cons e evs ih =>
    intro s m
    cases e with
    | fail => rfl
    | byte b =>
      rw [session, readLoop]
      cases hb : byteStep g fp { s with rx := b } m b with
      | loop s' m' => exact ih s' m'
      | ret v m' => rfl
      | crash e => rfl
    | empty =>
      rw [session, readLoop]
      cases hb : byteStep g fp s m s.rx with
      | loop s' m' => exact ih s' m'
      | ret v m' => rfl
      | crash e => rfl

/-- Every accepted text is a line in the sense of C27_session, so the hypotheses are met by real
adapter output (timestamps of hex digits). -/
example : IsLine sampleText := by
  refine ⟨_, _, rfl, Or.inr (Or.inl rfl), ?_⟩
  intro b hb
  constructor
  · intro h
    have : ∀ b ∈ ("09F112012AABB1234".toList.map Char.toUInt8), isStart b = false := by decide
    have h1 := this b hb
    rw [(isStart_iff b).2 h] at h1
    cases h1
  · intro h; subst h; revert hb; decide

/-- Two lines with noise between them: a partial line cut by a new frame start is dropped. -/
example : (session (fun _ => 0) [] RState.init noPartials
    (("xx\rT09F1T09F112012AABB1234\rzzt1231FF0000\r".toList.map Char.toUInt8).map Ev.byte)).1
    = [.msg { priority := 2, pgn := 127250, source := 1, destination := 255, length := 2, data := [0xAA, 0xBB] },
       .msg { priority := 0, pgn := 0, source := 0x23, destination := 1, length := 1, data := [0xFF] }] := by
  decide

/-! ## C28 -/

/-- C28: `Read` on a port that is not open fails without consuming anything from the serial line and
without touching the partial messages. -/
theorem C28_closed (g : Nat → Nat) (fp : List Nat) (m : Partials) (evs : List Ev) :
    Read g fp false m evs = (.closed, evs, m) := rfl

/-! ## C29–C32, C80 -/

/-- The address claim message as any station receives it from address `a`. -/
def claimFrom (a : Byte) : MsgView :=
  { priority := 2, pgn := 60928, source := a, destination := 225, length := 8, data := claimData }

theorem claim_sent (p : CanPort) (a : Byte) :
    ∃ text, AddressClaim p a = .ok (a, { p with
        a := a
        port := { p.port with log := p.port.log ++ [text ++ [13]] } }) ∧
      ∀ ts sp, ts.length = 4 → parsed ⟨text ++ ts, sp⟩ = .frame (claimFrom a) := by
  obtain ⟨text, h1, _, h3⟩ := C19_sends { p with a := a } claimMessage (by decide) (by decide)
  refine ⟨text, ?_, ?_⟩
  · simp only [AddressClaim, h1, bind, Except.bind, pure, Except.pure]
  · intro ts sp hts
    rw [h3 ts sp hts]
    have : asReceived a claimMessage.view = claimFrom a := by
      simp only [asReceived, claimFrom, claimMessage, RawMessage.view]
      congr 1
    rw [this]

/-- C29: every `AddressClaim` writes exactly one text, which any station reads as a PGN 60928 message
sent from the claimed address, whose 8 data bytes are the ISO NAME with unique number 0x1FFFFF,
manufacturer 100, function 25, class 25, industry group 4, arbitrary-address capable; the port has the
claimed address afterwards. -/
theorem C29_claim (p : CanPort) (a : Byte) :
    ∃ text p', AddressClaim p a = .ok (a, p') ∧ p'.a = a ∧ p'.port.log = p.port.log ++ [text ++ [13]] ∧
      ∀ ts sp, ts.length = 4 → ∃ v, parsed ⟨text ++ ts, sp⟩ = .frame v ∧ v.pgn = 60928 ∧ v.source = a ∧
        v.data.length = 8 ∧
        nameOf (leValue v.data) =
          { unique := 0x1FFFFF, manufacturer := 100, instanceLow := 0, instanceHigh := 0, function := 25,
            cls := 25, systemInstance := 0, industry := 4, arbitrary := 1 } := by
  obtain ⟨text, h1, h2⟩ := claim_sent p a
  refine ⟨text, _, h1, rfl, rfl, ?_⟩
  intro ts sp hts
  exact ⟨_, h2 ts sp hts, rfl, rfl, by show claimData.length = 8; decide, by
    show nameOf (leValue claimData) = _; decide⟩

/-- C30 is false: no address claim is ever sent to the global address 255; every one goes to 225. -/
theorem C30_false (p : CanPort) (a : Byte) :
    ∃ text p', AddressClaim p a = .ok (a, p') ∧ p'.port.log = p.port.log ++ [text ++ [13]] ∧
      ∀ ts sp, ts.length = 4 → ∃ v, parsed ⟨text ++ ts, sp⟩ = .frame v ∧ v.destination = 225 ∧
        v.destination ≠ 255 := by
  obtain ⟨text, h1, h2⟩ := claim_sent p a
  exact ⟨text, _, h1, rfl, fun ts sp hts => ⟨_, h2 ts sp hts, rfl, by show (225 : Byte) ≠ 255; decide⟩⟩

/-- The number of conflicting claims in a history for a station at address `a`: a received address
claim whose source is the station's address at that moment; the station then moves to the next
address. -/
def conflicts (a : Byte) : List MsgView → Nat
  | [] => 0
  | m :: ms => if m.pgn = 60928 ∧ m.source = a then 1 + conflicts (a + 1) ms else conflicts a ms

/-- C31: over any message history the loop never fails, ends at the initial address plus the number of
conflicts modulo 256, and writes exactly one claim per conflict: the i-th one announces the address
after i conflicts. -/
theorem C31_conflicts (ms : List MsgView) : ∀ p : CanPort,
    ∃ (p' : CanPort) (texts : List (List Byte)), conflictLoop p ms = .ok p' ∧
      p'.a = p.a + UInt8.ofNat (conflicts p.a ms) ∧ p'.isOpen = p.isOpen ∧
      p'.port.log = p.port.log ++ texts.map (· ++ [13]) ∧ texts.length = conflicts p.a ms ∧
      ∀ i text, texts[i]? = some text → ∀ ts sp, ts.length = 4 →
        parsed ⟨text ++ ts, sp⟩ = .frame (claimFrom (p.a + UInt8.ofNat (i + 1))) := by
  induction ms with
  | nil =>
    intro p
    refine ⟨p, [], rfl, ?_, rfl, by simp, rfl, by simp⟩
    simp [conflicts]
  | cons m ms ih =>
    intro p
    by_cases hc : m.pgn = 60928 ∧ m.source = p.a
    · obtain ⟨text, h1, h2⟩ := claim_sent p (p.a + 1)
      obtain ⟨p', texts, i1, i2, i3, i4, i5, i6⟩ := ih { p with
        a := p.a + 1, port := { p.port with log := p.port.log ++ [text ++ [13]] } }
      have hoff : ∀ n, p.a + 1 + UInt8.ofNat n = p.a + UInt8.ofNat (1 + n) := by
        intro n
        rw [UInt8.ofNat_add, UInt8.add_assoc]; rfl
      have hcb : (m.pgn == 60928 && m.source == p.a) = true := by simp [hc.1, hc.2]
      refine ⟨p', text :: texts, ?_, ?_, i3, ?_, ?_, ?_⟩
      · simp only [conflictLoop, conflictStep, hcb, if_true, h1, bind, Except.bind, pure, Except.pure, i1]
      · rw [i2, conflicts, if_pos hc]; exact hoff _
      · rw [i4]; simp
      · simp only [List.length_cons, i5, conflicts, if_pos hc]; omega
      · intro i t ht ts sp hts
        cases i with
        | zero =>
          simp only [List.getElem?_cons_zero, Option.some.injEq] at ht
          subst ht
          exact h2 ts sp hts
        | succ i =>
          simp only [List.getElem?_cons_succ] at ht
          rw [i6 i t ht ts sp hts]
          simp only [hoff]
          rw [Nat.add_comm 1]
    · obtain ⟨p', texts, i1, i2, i3, i4, i5, i6⟩ := ih p
      have hcb : (m.pgn == 60928 && m.source == p.a) = false := by
        rw [Bool.eq_false_iff]; intro h; simp at h; exact hc h
      refine ⟨p', texts, ?_, ?_, i3, i4, ?_, i6⟩
      · simp only [conflictLoop, conflictStep, hcb, Bool.false_eq_true, if_false, bind, Except.bind, i1]
      · rw [i2, conflicts, if_neg hc]
      · rw [i5, conflicts, if_neg hc]

/-- C31: the address does not stay within the valid range 0..251: one conflict at 251 is enough to
make the station claim 252, and three more to make it claim 255, the global address. -/
theorem C31_false_range :
    ∃ ms : List MsgView, ms.length = 4 ∧ ∃ p', conflictLoop { samplePort with a := 251 } ms = .ok p' ∧ p'.a = 255 := by
  obtain ⟨p', _, h1, h2, _⟩ := C31_conflicts
    [claimFrom 251, claimFrom 252, claimFrom 253, claimFrom 254] { samplePort with a := 251 }
  exact ⟨_, rfl, p', h1, by rw [h2]; decide⟩

/-- C32 is false: `CloseChannel` panics on every port, whatever capacity the compiler gives the
command literal, before the serial port is closed. -/
theorem C32_false (spare : List Byte) (p : CanPort) : ∃ e, CloseChannel spare p = .error e := by
  unfold CloseChannel Write
  simp only [bind, Except.bind, Slice.get, List.getElem?_cons_zero]
  cases h : Slice.sub ⟨[67, 13], spare⟩ 1 4 with
  | error e => exact ⟨e, rfl⟩
  | ok s => exact ⟨.index, by simp⟩

/-- C80: `OpenChannel` sets the bit rate, opens the bus, claims the requested address (ignoring the
outcome of that write) and returns an open port with this address; if one of the two commands fails it
returns that error and no port, and sends nothing further. -/
theorem C80_open (port : Port) (group a : Byte) :
    ∃ text, (∀ ts sp, ts.length = 4 → parsed ⟨text ++ ts, sp⟩ = .frame (claimFrom a)) ∧
    let S5 : List Byte := "S5\r".toList.map Char.toUInt8
    let O : List Byte := "O\r".toList.map Char.toUInt8
    OpenChannel port group a =
      match (port.script port.log.length).2 with
      | some e => .ok ((none, some e), { port with log := port.log ++ [S5] })
      | none =>
        match (port.script (port.log.length + 1)).2 with
        | some e => .ok ((none, some e), { port with log := port.log ++ [S5, O] })
        | none =>
          let port' := { port with log := port.log ++ [S5, O, text ++ [13]] }
          .ok ((some { port := port', a := a, isOpen := true, group := group }, none), port') := by
  obtain ⟨text, h1, h2⟩ := claim_sent
    { port := { port with log := port.log ++ [[83, 53, 13], [79, 13]] }, a := 0, isOpen := false, group := group } a
  refine ⟨text, h2, ?_⟩
  have e1 : "S5\r".toList.map Char.toUInt8 = [83, 53, 13] := by decide
  have e2 : "O\r".toList.map Char.toUInt8 = [79, 13] := by decide
  simp only [e1, e2]
  unfold OpenChannel
  simp only [Port.write]
  cases hs1 : port.script port.log.length with
  | mk n err =>
    cases err with
    | some e => rfl
    | none =>
      simp only [List.length_append, List.length_singleton]
      cases hs2 : port.script (port.log.length + 1) with
      | mk n2 err2 =>
        cases err2 with
        | some e => simp [pure, Except.pure]
        | none =>
          simp only [List.append_assoc, List.singleton_append, bind, Except.bind, h1, pure, Except.pure]
          simp

end Argo.Canusb
