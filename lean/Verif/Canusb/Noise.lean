import Verif.Canusb.Multi

set_option autoImplicit false

/-!
# Which input crashes the CANUSB readers (C16)

`C16_receive_partial` says which line crashes the receiver; here the input is anything the adapters can
produce: bytes in any interleaving, read errors and empty reads.
-/

namespace Argo.Canusb
open CanSpec

/-! ## Specification -/

/-- Receiving this text as a line crashes: the parser panics (`C16_partial`), or it is a frame of a fast-packet
PGN without data, or the first frame of a fast packet without the size byte. -/
def CrashingLine (fp : List Nat) (l : Slice) : Prop :=
  parsed l = .panic ∨ ∃ v, parsed l = .frame v ∧ isFastPacket fp v.pgn = true ∧
    (v.data = [] ∨ ∃ h, v.data = [h] ∧ h.toNat % 32 = 0)

/-! ## Proofs -/

theorem crashing_iff (fp : List Nat) (m : Partials) (l : Slice) :
    (∃ e, frameReceived fp m l = .error e) ↔ CrashingLine fp l := C16_receive_partial fp m l.vis l.spare

/-- A crash happens at the end of a crashing line. -/
theorem sessions_crash (g : Nat → Nat) (fp : List Nat) (evs : List (Nat × Ev)) :
    ∀ (s : Nat → RState) (m : Partials) (i : Nat), (i, Obs.crash) ∈ sessions g fp s m evs →
      ∃ l, (i, l) ∈ completedBy g fp s m evs ∧ CrashingLine fp l := by
  induction evs with
  | nil => intro s m i h; cases h
  | cons y evs ih =>
    obtain ⟨p, e⟩ := y
    intro s m i h
    rw [sessions] at h
    rw [completedBy]
    cases hc : completed (s p) e with
    | none =>
      obtain ⟨o, s', hs⟩ := step_none g fp (s p) e hc
      rw [hs m] at h ⊢
      simp only [] at h ⊢
      rcases List.mem_append.mp h with h | h
      · exfalso
        obtain ⟨ob, ho, he⟩ := List.mem_map.mp h
        simp only [Prod.mk.injEq] at he
        obtain ⟨_, rfl⟩ := he
        have hno : Obs.crash ∉ (session g fp (s p) m [e]).1 := by
          cases e with
          | fail => simp [session]
          | byte b =>
            have h' : ¬(b = 13 ∧ (s p).sof = true) := by
              intro hcc; simp [completed, hcc] at hc
            obtain ⟨s2, hb⟩ := byteStep_none g fp { s p with rx := b } b h'
            simp [session, hb]
          | empty =>
            have h' : ¬((s p).rx = 13 ∧ (s p).sof = true) := by
              intro hcc; simp [completed, hcc] at hc
            obtain ⟨s2, hb⟩ := byteStep_none g fp (s p) (s p).rx h'
            simp [session, hb]
        exact hno (by rw [hs m]; exact ho)
      · obtain ⟨l, k1, k2⟩ := ih _ _ i h
        exact ⟨l, by simpa using k1, k2⟩
    | some l0 =>
      obtain ⟨s1, hs⟩ := step_line g fp (s p) e hc
      rw [hs m] at h ⊢
      cases hr : frameReceived fp m l0 with
      | error er =>
        rw [hr] at h
        simp only [List.map_cons, List.map_nil, List.mem_singleton, Prod.mk.injEq, and_true] at h
        subst h
        exact ⟨l0, by simp, (crashing_iff fp m l0).1 ⟨er, hr⟩⟩
      | ok r =>
        obtain ⟨o, m1⟩ := r
        rw [hr] at h
        cases o with
        | none =>
          simp only [List.map_nil, List.nil_append] at h
          obtain ⟨l, k1, k2⟩ := ih _ _ i h
          exact ⟨l, List.mem_append_right _ k1, k2⟩
        | some f =>
          simp only [List.map_cons, List.map_nil, List.cons_append, List.nil_append] at h
          rcases List.mem_cons.mp h with h | h
          · cases (Prod.mk.inj h).2
          · obtain ⟨l, k1, k2⟩ := ih _ _ i h
            exact ⟨l, List.mem_append_right _ k1, k2⟩

theorem heard_ne_nil (last : Byte) (cur : List Byte) (es : List Ev) : heard last cur es ≠ [] := by
  obtain ⟨ext, segs, h⟩ := heard_head es last cur
  rw [h]; simp

theorem snoc_split {cur u w : List Byte} {b x : Byte} (h : cur ++ [b] = u ++ x :: w) :
    (∃ w', cur = u ++ x :: w') ∨ (u = cur ∧ x = b) := by
  rcases List.eq_nil_or_concat w with rfl | ⟨w', y, rfl⟩
  · obtain ⟨h1, h2⟩ := List.append_inj' h rfl
    injection h2 with h2
    exact Or.inr ⟨h1.symm, h2.symm⟩
  · left
    have : cur ++ [b] = (u ++ x :: w') ++ [y] := by rw [h]; simp
    exact ⟨w', (List.append_inj' this rfl).1⟩

/-- A byte heard was heard at some outcome: it was received then, or an empty read repeated the byte before. -/
theorem heard_split (es : List Ev) : ∀ (last : Byte) (cur u w : List Byte) (x : Byte),
    (cur = [] ∨ cur.getLast? = some last) → u ++ x :: w ∈ heard last cur es → (∃ w', cur = u ++ x :: w') ∨
      ∃ A e B, es = A ++ e :: B ∧ (heard last cur A).getLast? = some u ∧
        (e = .byte x ∨ (e = .empty ∧ (u = [] ∨ u.getLast? = some x))) := by
  induction es with
  | nil =>
    intro last cur u w x _ h
    simp only [heard, List.mem_singleton] at h
    exact Or.inl ⟨w, h.symm⟩
  | cons e es ih =>
    intro last cur u w x h0 h
    cases e with
    | fail =>
      rw [heard] at h
      rcases List.mem_cons.mp h with h | h
      · exact Or.inl ⟨w, h.symm⟩
      · rcases ih 0 [] u w x (Or.inl rfl) h with ⟨w', hw⟩ | ⟨A, e, B, h1, h2, h3⟩
        · simp at hw
        · refine Or.inr ⟨.fail :: A, e, B, by rw [h1]; rfl, ?_, h3⟩
          rw [heard, List.getLast?_cons, h2]; rfl
    | byte b =>
      rw [heard] at h
      rcases ih b (cur ++ [b]) u w x (Or.inr (by simp)) h with ⟨w', hw⟩ | ⟨A, e, B, h1, h2, h3⟩
      · rcases snoc_split hw with k | ⟨rfl, rfl⟩
        · exact Or.inl k
        · exact Or.inr ⟨[], _, es, rfl, rfl, Or.inl rfl⟩
      · exact Or.inr ⟨.byte b :: A, e, B, by rw [h1]; rfl, by rw [heard]; exact h2, h3⟩
    | empty =>
      rw [heard] at h
      rcases ih last (cur ++ [last]) u w x (Or.inr (by simp)) h with ⟨w', hw⟩ | ⟨A, e, B, h1, h2, h3⟩
      · rcases snoc_split hw with k | ⟨rfl, rfl⟩
        · exact Or.inl k
        · exact Or.inr ⟨[], _, es, rfl, rfl, Or.inr ⟨rfl, h0⟩⟩
      · exact Or.inr ⟨.empty :: A, e, B, by rw [h1]; rfl, by rw [heard]; exact h2, h3⟩

/-- The reader holds the line it has begun. -/
def Holds (g : Nat → Nat) (s : RState) (last : Byte) (cur : List Byte) : Prop :=
  (∀ pre t, IsLine t → cur = pre ++ t → s.sof = true ∧ s.msg = grown g t) ∧
  (s.rx = last ∨ (s.sof = false ∧ ¬ FrameStart s.rx ∧ ¬ FrameStart last))

theorem isLine_snoc {t : List Byte} {b : Byte} (h : IsLine (t ++ [b])) :
    (t = [] ∧ FrameStart b) ∨ (IsLine t ∧ ¬ FrameStart b ∧ b ≠ 13) := by
  obtain ⟨c, t', e, hc, ht⟩ := h
  cases t with
  | nil =>
    simp only [List.nil_append, List.cons.injEq] at e
    exact Or.inl ⟨rfl, by rw [e.1]; exact hc⟩
  | cons c' t =>
    simp only [List.cons_append, List.cons.injEq] at e
    obtain ⟨rfl, rfl⟩ := e
    exact Or.inr ⟨⟨c', t, rfl, hc, fun b hb => ht b (by simp [hb])⟩, ht b (by simp)⟩

theorem isLine_ne_nil {t : List Byte} (h : IsLine t) : t ≠ [] := by
  obtain ⟨c, t', rfl, _⟩ := h; simp

theorem holds_init (g : Nat → Nat) {last : Byte} (cur : List Byte) (h : ¬ FrameStart last)
    (hn : ∀ pre t, IsLine t → cur ≠ pre ++ t) : Holds g RState.init last cur :=
  ⟨fun pre t ht e => absurd e (hn pre t ht), Or.inr ⟨rfl, by unfold FrameStart RState.init; decide, h⟩⟩

/-- One byte, heard by a reader that has it in its buffer. -/
theorem holds_byte (g : Nat → Nat) (fp : List Nat) {s : RState} {b : Byte} {cur : List Byte}
    (h : ∀ pre t, IsLine t → cur = pre ++ t → s.sof = true ∧ s.msg = grown g t) (hrx : s.rx = b) (m : Partials) :
    (∀ s' m', byteStep g fp s m b = .loop s' m' → Holds g s' b (cur ++ [b])) ∧
    (∀ v m', byteStep g fp s m b = .ret v m' → Holds g RState.init b (cur ++ [b])) := by
  have hsplit : ∀ {pre t}, IsLine t → cur ++ [b] = pre ++ t →
      (t = [b] ∧ FrameStart b) ∨ ∃ t0, t = t0 ++ [b] ∧ IsLine t0 ∧ cur = pre ++ t0 ∧ ¬ FrameStart b ∧ b ≠ 13 := by
    intro pre t ht e
    rcases List.eq_nil_or_concat t with rfl | ⟨t0, y, rfl⟩
    · exact absurd rfl (isLine_ne_nil ht)
    · rw [List.concat_eq_append] at ht e ⊢
      rw [← List.append_assoc] at e
      obtain ⟨e1, e2⟩ := List.append_inj' e rfl
      injection e2 with e2
      subst e2
      rcases isLine_snoc ht with ⟨rfl, k⟩ | ⟨k1, k2, k3⟩
      · exact Or.inl ⟨rfl, k⟩
      · exact Or.inr ⟨t0, rfl, k1, e1, k2, k3⟩
  refine ⟨?_, ?_⟩
  · intro s' m' hb
    unfold byteStep at hb
    by_cases h1 : isStart b = true
    · rw [if_pos h1] at hb
      injection hb with hb hb'
      subst hb
      refine ⟨fun pre t ht e => ?_, Or.inl hrx⟩
      rcases hsplit ht e with ⟨rfl, _⟩ | ⟨_, _, _, _, k, _⟩
      · exact ⟨rfl, rfl⟩
      · exact absurd ((isStart_iff b).1 h1) k
    · rw [if_neg h1] at hb
      have hns : ¬ FrameStart b := fun hc => h1 ((isStart_iff b).2 hc)
      by_cases h2 : (b == 13 && s.sof) = true
      · rw [if_pos h2] at hb
        simp only [Bool.and_eq_true, beq_iff_eq] at h2
        split at hb
        · cases hb
        · cases hb
        · injection hb with hb hb'
          subst hb
          refine ⟨fun pre t ht e => ?_, Or.inl hrx⟩
          rcases hsplit ht e with ⟨_, k⟩ | ⟨_, _, _, _, _, k⟩
          · exact absurd k hns
          · exact absurd h2.1 k
      · rw [if_neg h2] at hb
        by_cases h3 : s.sof = true
        · rw [if_pos h3] at hb
          injection hb with hb hb'
          subst hb
          refine ⟨fun pre t ht e => ?_, Or.inl hrx⟩
          rcases hsplit ht e with ⟨_, k⟩ | ⟨t0, rfl, k1, k2, _⟩
          · exact absurd k hns
          · refine ⟨h3, ?_⟩
            show s.msg.push g b = _
            rw [(h pre t0 k1 k2).2]
            simp [grown]
        · rw [if_neg h3] at hb
          injection hb with hb hb'
          subst hb
          refine ⟨fun pre t ht e => ?_, Or.inl hrx⟩
          rcases hsplit ht e with ⟨_, k⟩ | ⟨t0, rfl, k1, k2, _⟩
          · exact absurd k hns
          · exact absurd (h pre t0 k1 k2).1 h3
  · intro v m' hb
    have hns : ¬ FrameStart b := by
      intro hc
      unfold byteStep at hb
      rw [if_pos ((isStart_iff b).2 hc)] at hb; cases hb
    have h13 : b = 13 := by
      unfold byteStep at hb
      rw [if_neg (fun hc => hns ((isStart_iff b).1 hc))] at hb
      by_cases h2 : (b == 13 && s.sof) = true
      · simp only [Bool.and_eq_true, beq_iff_eq] at h2; exact h2.1
      · rw [if_neg h2] at hb
        split at hb <;> cases hb
    refine holds_init g _ hns (fun pre t ht e => ?_)
    rcases hsplit ht e with ⟨_, k⟩ | ⟨_, _, _, _, _, k⟩
    · exact hns k
    · exact k h13

/-- One outcome of the port. -/
theorem holds_step (g : Nat → Nat) (fp : List Nat) (s : RState) (m : Partials) (e : Ev) (last : Byte) (cur : List Byte)
    (h : Holds g s last cur) :
    ∃ last' cur', (∀ evs, ∃ pre, heard last cur (e :: evs) = pre ++ heard last' cur' evs) ∧
      ∀ o s' m', session g fp s m [e] = (o, some (s', m')) → Holds g s' last' cur' := by
  cases e with
  | fail =>
    refine ⟨0, [], fun evs => ⟨[cur], rfl⟩, ?_⟩
    intro o s' m' hs
    simp only [session, Prod.mk.injEq, Option.some.injEq] at hs
    rw [← hs.2.1]
    refine holds_init g _ not_start_0 (fun pre t ht e => isLine_ne_nil ht ?_)
    simpa using (List.append_eq_nil_iff.mp e.symm).2
  | byte b =>
    obtain ⟨k1, k2⟩ := holds_byte g fp (s := { s with rx := b }) (b := b) (cur := cur) h.1 rfl m
    refine ⟨b, cur ++ [b], fun evs => ⟨[], rfl⟩, ?_⟩
    intro o s' m' hs
    simp only [session] at hs
    cases hb : byteStep g fp { s with rx := b } m b with
    | loop x y =>
      rw [hb] at hs
      simp only [Prod.mk.injEq, Option.some.injEq] at hs
      rw [← hs.2.1]
      exact k1 _ _ hb
    | ret x y =>
      rw [hb] at hs
      simp only [Prod.mk.injEq, Option.some.injEq] at hs
      rw [← hs.2.1]
      exact k2 _ _ hb
    | crash x => rw [hb] at hs; simp at hs
  | empty =>
    refine ⟨last, cur ++ [last], fun evs => ⟨[], rfl⟩, ?_⟩
    intro o s' m' hs
    simp only [session] at hs
    rcases h with ⟨h1, h2 | ⟨h2, h3, h4⟩⟩
    · obtain ⟨k1, k2⟩ := holds_byte g fp (s := s) (b := last) (cur := cur) h1 h2 m
      rw [h2] at hs
      cases hb : byteStep g fp s m last with
      | loop x y =>
        rw [hb] at hs
        simp only [Prod.mk.injEq, Option.some.injEq] at hs
        rw [← hs.2.1]
        exact k1 _ _ hb
      | ret x y =>
        rw [hb] at hs
        simp only [Prod.mk.injEq, Option.some.injEq] at hs
        rw [← hs.2.1]
        exact k2 _ _ hb
      | crash x => rw [hb] at hs; simp at hs
    · have hb : byteStep g fp s m s.rx = .loop s m := by
        unfold byteStep
        simp [isStart_false h3, h2]
      rw [hb] at hs
      simp only [Prod.mk.injEq, Option.some.injEq] at hs
      rw [← hs.2.1]
      refine ⟨fun pre t ht e => ?_, Or.inr ⟨h2, h3, h4⟩⟩
      exfalso
      rcases List.eq_nil_or_concat t with rfl | ⟨t0, y, rfl⟩
      · exact isLine_ne_nil ht rfl
      · rw [List.concat_eq_append] at ht e
        rw [← List.append_assoc] at e
        obtain ⟨e1, e2⟩ := List.append_inj' e rfl
        injection e2 with e2
        subst e2
        rcases isLine_snoc ht with ⟨rfl, k⟩ | ⟨k1, k2, k3⟩
        · exact h4 k
        · have := (h1 pre t0 k1 e1).1
          rw [h2] at this; cases this

/-- After any input without a crash, every reader holds the line it has begun. -/
theorem sessions_holds (g : Nat → Nat) (fp : List Nat) (evs : List (Nat × Ev)) :
    ∀ (s : Nat → RState) (m : Partials) (last : Nat → Byte) (cur : Nat → List Byte),
      (∀ i, Holds g (s i) (last i) (cur i)) →
      (∃ j, (j, Obs.crash) ∈ sessions g fp s m evs) ∨
      ∃ s' m', (∀ more, sessions g fp s m (evs ++ more) = sessions g fp s m evs ++ sessions g fp s' m' more) ∧
        ∀ i, ∃ last' cur', Holds g (s' i) last' cur' ∧ (heard (last i) (cur i) (ofPort i evs)).getLast? = some cur' := by
  induction evs with
  | nil =>
    intro s m last cur h
    exact Or.inr ⟨s, m, fun more => rfl, fun i => ⟨last i, cur i, h i, rfl⟩⟩
  | cons y evs ih =>
    obtain ⟨p, e⟩ := y
    intro s m last cur h
    obtain ⟨last1, cur1, k1, k2⟩ := holds_step g fp (s p) m e (last p) (cur p) (h p)
    cases hs : session g fp (s p) m [e] with
    | mk o st =>
      cases st with
      | none =>
        left
        refine ⟨p, ?_⟩
        rw [sessions, hs]
        have : o = [.crash] := by
          cases hc : completed (s p) e with
          | none => obtain ⟨o', s', h'⟩ := step_none g fp (s p) e hc; rw [h' m] at hs; cases hs
          | some l0 =>
            obtain ⟨s1, h'⟩ := step_line g fp (s p) e hc
            rw [h' m] at hs
            split at hs
            · injection hs with hs _; exact hs.symm
            · cases hs
            · cases hs
        simp [this]
      | some z =>
        obtain ⟨s1, m1⟩ := z
        have hh := k2 o s1 m1 hs
        rcases ih (setAt s p s1) m1 (fun j => if j = p then last1 else last j) (fun j => if j = p then cur1 else cur j) (by
          intro j
          by_cases hj : j = p
          · subst hj; rw [setAt_self]; simpa using hh
          · rw [setAt_ne _ _ hj]; simpa [hj] using h j) with ⟨j, hj⟩ | ⟨s', m', h1, h2⟩
        · left
          refine ⟨j, ?_⟩
          rw [sessions, hs]
          exact List.mem_append_right _ hj
        · right
          refine ⟨s', m', fun more => ?_, fun i => ?_⟩
          · rw [List.cons_append, sessions, sessions, hs]
            simp only [h1 more, List.append_assoc]
          · obtain ⟨last', cur', h3, h4⟩ := h2 i
            refine ⟨last', cur', h3, ?_⟩
            by_cases hi : i = p
            · subst hi
              simp only [if_true] at h4
              obtain ⟨pre, hpre⟩ := k1 (ofPort i evs)
              rw [ofPort_self, hpre, List.getLast?_append, h4]; rfl
            · simp only [hi, if_false] at h4
              rw [ofPort_ne _ _ hi]; exact h4

theorem ofPort_split {α : Type} (i : Nat) (l : List (Nat × α)) : ∀ (A B : List α) (e : α), ofPort i l = A ++ e :: B →
    ∃ l1 l2, l = l1 ++ (i, e) :: l2 ∧ ofPort i l1 = A := by
  induction l with
  | nil => intro A B e h; simp [ofPort] at h
  | cons x l ih =>
    obtain ⟨p, y⟩ := x
    intro A B e h
    by_cases hp : p = i
    · subst hp
      rw [ofPort_self] at h
      cases A with
      | nil =>
        simp only [List.nil_append, List.cons.injEq] at h
        exact ⟨[], l, by rw [h.1]; rfl, rfl⟩
      | cons a A =>
        simp only [List.cons_append, List.cons.injEq] at h
        obtain ⟨l1, l2, h1, h2⟩ := ih A B e h.2
        exact ⟨(p, y) :: l1, l2, by rw [h1]; rfl, by rw [ofPort_self, h2, h.1]⟩
    · rw [ofPort_ne _ _ (fun e => hp e.symm)] at h
      obtain ⟨l1, l2, h1, h2⟩ := ih A B e h
      exact ⟨(p, y) :: l1, l2, by rw [h1]; rfl, by rw [ofPort_ne _ _ (fun e => hp e.symm), h2]⟩

/-- What was observed stays observed. -/
theorem sessions_prefix (g : Nat → Nat) (fp : List Nat) (evs : List (Nat × Ev)) {x : Nat × Obs} :
    ∀ (s : Nat → RState) (m : Partials) (more : List (Nat × Ev)), x ∈ sessions g fp s m evs →
      x ∈ sessions g fp s m (evs ++ more) := by
  induction evs with
  | nil => intro s m more h; cases h
  | cons y evs ih =>
    obtain ⟨p, e⟩ := y
    intro s m more h
    rw [List.cons_append, sessions]
    rw [sessions] at h
    cases hs : session g fp (s p) m [e] with
    | mk o st =>
      rw [hs] at h
      cases st with
      | none => exact h
      | some z =>
        rcases List.mem_append.mp h with h | h
        · exact List.mem_append_left _ h
        · exact List.mem_append_right _ (ih _ _ more h)

/-! ## C16 -/

/-- **C16** (any input, where crashes come from): with any number of adapters producing anything, the process
crashes at an interface only at the end of a crashing line received there. -/
theorem C16_stream_partial (g : Nat → Nat) (fp : List Nat) (evs : List (Nat × Ev)) (i : Nat)
    (h : (i, Obs.crash) ∈ sessions g fp fresh noPartials evs) :
    ∃ l, CrashingLine fp l ∧ ∃ bs ∈ heard 0 [] (ofPort i evs), LineIn bs l.vis := by
  obtain ⟨l, h1, h2⟩ := sessions_crash g fp evs fresh noPartials i h
  exact ⟨l, h2, completedBy_lines g fp evs fresh noPartials (fun _ => 0) (fun _ => [])
    (fun j => fits_init _ not_start_0) i l h1⟩

/-- **C16** (any input, always fatal; so the property is false of every input with such a line): wherever a crashing line appears in what an adapter sends, after and
among whatever else, the process crashes. -/
theorem C16_fatal (g : Nat → Nat) (fp : List Nat) (evs : List (Nat × Ev)) (i : Nat) {t pre rest : List Byte}
    (ht : IsLine t) (hc : CrashingLine fp (grown g t)) (h : pre ++ t ++ 13 :: rest ∈ heard 0 [] (ofPort i evs)) :
    ∃ j, (j, Obs.crash) ∈ sessions g fp fresh noPartials evs := by
  rcases heard_split _ 0 [] (pre ++ t) rest 13 (Or.inl rfl) h with ⟨w', hw⟩ | ⟨A, e, B, h1, h2, h3⟩
  · simp at hw
  · have hne : pre ++ t ≠ [] := by simp [isLine_ne_nil ht]
    have he : e = .byte 13 := by
      rcases h3 with h3 | ⟨_, h3 | h3⟩
      · exact h3
      · exact absurd h3 hne
      · exfalso
        rw [List.getLast?_append] at h3
        obtain ⟨c, t', rfl, hcs, ht'⟩ := ht
        rcases List.eq_nil_or_concat t' with rfl | ⟨t0, y, rfl⟩
        · simp only [List.getLast?_singleton, Option.some_or, Option.some.injEq] at h3
          exact not_start_13 (h3 ▸ hcs)
        · have : (c :: t0.concat y).getLast? = some y := by
            rw [List.concat_eq_append, ← List.cons_append, List.getLast?_concat]
          rw [this] at h3
          simp only [Option.some_or, Option.some.injEq] at h3
          exact (ht' y (by simp)).2 h3
    subst he
    obtain ⟨l1, l2, e1, e2⟩ := ofPort_split i evs A B _ h1
    rcases sessions_holds g fp l1 fresh noPartials (fun _ => 0) (fun _ => [])
        (fun j => holds_init g _ not_start_0 (fun p t ht e => isLine_ne_nil ht
          (List.append_eq_nil_iff.mp e.symm).2)) with ⟨j, hj⟩ | ⟨s', m', k1, k2⟩
    · exact ⟨j, by rw [e1]; exact sessions_prefix g fp l1 fresh noPartials _ hj⟩
    · obtain ⟨last', cur', k3, k4⟩ := k2 i
      rw [e2, h2] at k4
      injection k4 with k4
      obtain ⟨k5, k6⟩ := k3.1 pre t ht k4.symm
      refine ⟨i, ?_⟩
      rw [e1, k1]
      apply List.mem_append_right
      have hcomp : completed (s' i) (.byte 13) = some (grown g t) := by
        simp [completed, k5, k6]
      obtain ⟨s1, hs⟩ := step_line g fp (s' i) (.byte 13) hcomp
      obtain ⟨er, her⟩ := (crashing_iff fp m' _).2 hc
      rw [sessions, hs m', her]
      simp

/-- Non-vacuity: among the bytes of two adapters, one of which fails in between, the second sends a line that
stops after the identifier. -/
def noisy : List (Nat × Ev) :=
  [(0, .byte 84), (1, .byte 99), (0, .byte 48), (1, .fail), (1, .byte 7)] ++
    (shortLine.map fun b => (1, Ev.byte b)) ++ [(0, .empty), (1, .byte 13), (0, .byte 13)]
where shortLine : List Byte := "T09F11201".toList.map Char.toUInt8

example : IsLine noisy.shortLine ∧ CrashingLine [] (grown (fun _ => 0) noisy.shortLine) ∧
    [7] ++ noisy.shortLine ++ 13 :: [] ∈ heard 0 [] (ofPort 1 noisy) :=
  ⟨⟨84, _, rfl, by unfold FrameStart; decide, by unfold FrameStart; decide⟩, Or.inl (by decide), by decide⟩

example : ∃ j, (j, Obs.crash) ∈ sessions (fun _ => 0) [] fresh noPartials noisy :=
  C16_fatal _ _ _ 1 (t := noisy.shortLine) (pre := [7]) (rest := [])
    ⟨84, _, rfl, by unfold FrameStart; decide, by unfold FrameStart; decide⟩ (Or.inl (by decide)) (by decide)

end Argo.Canusb
