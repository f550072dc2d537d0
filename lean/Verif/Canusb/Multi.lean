import Verif.Canusb.Props6
import Verif.Heard

set_option autoImplicit false

/-!
# Several CANUSB interfaces at once (C96)

`partial_messages` (canframe.go:39-40) is a variable of the package: all interfaces share it, each of them
has its own goroutine, port and `Read` locals (argo.go:265-282).
-/

namespace Argo.Canusb
open CanSpec

/-! ## Model -/

/-- The locals of interface `i`'s `Read` change. -/
def setAt (s : Nat → RState) (i : Nat) (x : RState) : Nat → RState := fun j => if j = i then x else s j

/-- Repeated `Read` calls on several open ports, one goroutine each (argo.go:272-282), sharing
`partial_messages`; `evs` are the outcomes of the serial ports, tagged with the interface, in the order in
which they happen.  One loop body (canport.go:142-163) is atomic: the code has no lock, and a data race
on the map is not modelled.  A panic ends the process. -/
def sessions (g : Nat → Nat) (fp : List Nat) : (Nat → RState) → Partials → List (Nat × Ev) → List (Nat × Obs)
  | _, _, [] => []
  | s, m, (i, e) :: evs =>
    match session g fp (s i) m [e] with
    | (o, none) => o.map (fun x => (i, x))
    | (o, some (s', m')) => o.map (fun x => (i, x)) ++ sessions g fp (setAt s i s') m' evs

/-! ## Specification -/

/-- What belongs to interface `i`. -/
def ofPort {α : Type} (i : Nat) (l : List (Nat × α)) : List α := (l.filter fun x => x.1 == i).map Prod.snd

/-- Every interface's stretch of `evs` is its lines, each ended by a carriage return. -/
def Carry (evs : List (Nat × Ev)) (lines : Nat → List (List Byte)) : Prop :=
  ∀ i, ofPort i evs = ((lines i).flatMap fun l => l ++ [13]).map Ev.byte

/-- No two interfaces receive fast packets of the same PGN, source and group (modulo 4). -/
def Separate (fp : List Nat) (lines : Nat → List Slice) : Prop :=
  ∀ i j, i ≠ j → ∀ l ∈ lines i, ∀ l' ∈ lines j, ∀ k, streamOf fp l = some k → streamOf fp l' ≠ some k

/-! ## Lemmas -/

theorem session_cons (g : Nat → Nat) (fp : List Nat) (s : RState) (m : Partials) (e : Ev) (evs : List Ev) :
    session g fp s m (e :: evs) = match session g fp s m [e] with
      | (o, none) => (o, none)
      | (o, some (s', m')) => (o ++ (session g fp s' m' evs).1, (session g fp s' m' evs).2) := by
  cases e with
  | fail => simp [session]
  | byte b =>
    simp only [session]
    cases byteStep g fp { s with rx := b } m b <;> simp
  | empty =>
    simp only [session]
    cases byteStep g fp s m s.rx <;> simp

/-- The line that an outcome of the port completes. -/
def completed (s : RState) : Ev → Option Slice
  | .fail => none
  | .byte b => if b = 13 ∧ s.sof = true then some s.msg else none
  | .empty => if s.rx = 13 ∧ s.sof = true then some s.msg else none

/-- The lines completed in a session. -/
def linesOf (g : Nat → Nat) (fp : List Nat) : RState → Partials → List Ev → List Slice
  | _, _, [] => []
  | s, m, e :: evs =>
    (completed s e).toList ++ match session g fp s m [e] with
      | (_, none) => []
      | (_, some (s', m')) => linesOf g fp s' m' evs

theorem byteStep_none (g : Nat → Nat) (fp : List Nat) (s : RState) (b : Byte) (h : ¬(b = 13 ∧ s.sof = true)) :
    ∃ s', ∀ m, byteStep g fp s m b = .loop s' m := by
  unfold byteStep
  by_cases h1 : isStart b = true
  · exact ⟨_, fun m => by rw [if_pos h1]⟩
  · have h2 : ¬ ((b == 13 && s.sof) = true) := by simpa using h
    by_cases h3 : s.sof = true
    · exact ⟨_, fun m => by rw [if_neg h1, if_neg h2, if_pos h3]⟩
    · exact ⟨_, fun m => by rw [if_neg h1, if_neg h2, if_neg h3]⟩

theorem byteStep_line (g : Nat → Nat) (fp : List Nat) (s : RState) (m : Partials) (b : Byte)
    (h : b = 13 ∧ s.sof = true) :
    byteStep g fp s m b = match frameReceived fp m s.msg with
      | .error e => .crash e
      | .ok (some rec, m') => .ret rec.out m'
      | .ok (none, m') => .loop s m' := by
  obtain ⟨rfl, h⟩ := h
  have h13 : isStart 13 = false := by decide
  unfold byteStep
  rw [if_neg (by simp [h13]), if_pos (by simp [h])]
  split <;> simp_all

theorem step_none (g : Nat → Nat) (fp : List Nat) (s : RState) (e : Ev) (h : completed s e = none) :
    ∃ o s', ∀ m, session g fp s m [e] = (o, some (s', m)) := by
  cases e with
  | fail => exact ⟨_, _, fun m => rfl⟩
  | byte b =>
    have h' : ¬(b = 13 ∧ s.sof = true) := by
      intro hc; simp [completed, hc] at h
    obtain ⟨s', hs⟩ := byteStep_none g fp { s with rx := b } b h'
    exact ⟨[], s', fun m => by simp [session, hs]⟩
  | empty =>
    have h' : ¬(s.rx = 13 ∧ s.sof = true) := by
      intro hc; simp [completed, hc] at h
    obtain ⟨s', hs⟩ := byteStep_none g fp s s.rx h'
    exact ⟨[], s', fun m => by simp [session, hs]⟩

theorem step_line (g : Nat → Nat) (fp : List Nat) (s : RState) (e : Ev) {l : Slice} (h : completed s e = some l) :
    ∃ s1, ∀ m, session g fp s m [e] = match frameReceived fp m l with
      | .error _ => ([.crash], none)
      | .ok (some rec, m') => ([.msg rec.out], some (RState.init, m'))
      | .ok (none, m') => ([], some (s1, m')) := by
  cases e with
  | fail => cases h
  | byte b =>
    have h' : (b = 13 ∧ s.sof = true) ∧ s.msg = l := by
      simp only [completed] at h
      split at h
      · rename_i hc; injection h with h; exact ⟨hc, h⟩
      · cases h
    refine ⟨{ s with rx := b }, fun m => ?_⟩
    simp only [session]
    rw [byteStep_line g fp { s with rx := b } m b h'.1, h'.2]
    rcases frameReceived fp m l with _ | ⟨_ | _, _⟩ <;> simp
  | empty =>
    have h' : (s.rx = 13 ∧ s.sof = true) ∧ s.msg = l := by
      simp only [completed] at h
      split at h
      · rename_i hc; injection h with h; exact ⟨hc, h⟩
      · cases h
    refine ⟨s, fun m => ?_⟩
    simp only [session]
    rw [byteStep_line g fp s m s.rx h'.1, h'.2]
    rcases frameReceived fp m l with _ | ⟨_ | _, _⟩ <;> simp

/-- Two maps of partial messages agree on the streams of `K`. -/
def Agree (K : Nat × Byte × Nat → Prop) (m m' : Partials) : Prop :=
  ∀ k, K k → k.1 < 2 ^ 18 → m (slot k.2.2 k.1 k.2.1) = m' (slot k.2.2 k.1 k.2.1)

theorem set_same (m : Partials) (u : Nat) (x : Option CanFrame) : (m.set u x) u = x := by
  simp [Partials.set]

theorem set_other (m : Partials) {u w : Nat} (x : Option CanFrame) (h : w ≠ u) : (m.set u x) w = m w := by
  simp [Partials.set, h]

/-- A line of a stream of `K` is treated alike with maps that agree on `K`, and touches nothing else. -/
theorem received_agree (fp : List Nat) (K : Nat × Byte × Nat → Prop) (l : Slice)
    (hl : ∀ k, streamOf fp l = some k → K k) {m m' : Partials} (h : Agree K m m') :
    match frameReceived fp m l, frameReceived fp m' l with
    | .error e, .error e' => e = e'
    | .ok (o, n), .ok (o', n') => o = o' ∧ Agree K n n' ∧
        ∀ K' : Nat × Byte × Nat → Prop, (∀ k, streamOf fp l = some k → ¬ K' k) → ∀ x, Agree K' x m' → Agree K' x n'
    | _, _ => False := by
  cases hs : streamOf fp l with
  | none =>
    obtain ⟨r, hr⟩ := received_other fp l hs
    rw [hr m, hr m']
    cases r with
    | error e => exact rfl
    | ok o => exact ⟨rfl, h, fun K' _ x hx => hx⟩
  | some k =>
    obtain ⟨pgn, src, gr⟩ := k
    obtain ⟨hp, c, hc⟩ := received_stream fp l pgn src gr hs
    rw [hc m, hc m', h (pgn, src, gr) (hl _ hs) hp]
    cases hx : c (m' (slot gr pgn src)) with
    | error e => exact rfl
    | ok y =>
      obtain ⟨o, x⟩ := y
      refine ⟨rfl, ?_, ?_⟩
      · intro k' hk hk'
        by_cases he : slot k'.2.2 k'.1 k'.2.1 = slot gr pgn src
        · rw [he, set_same, set_same]
        · rw [set_other _ _ he, set_other _ _ he]; exact h k' hk hk'
      · intro K' hK' w hw k' hk hk'
        have he : slot k'.2.2 k'.1 k'.2.1 ≠ slot gr pgn src := by
          intro he
          obtain ⟨e1, e2, e3⟩ := C26_keys hk' hp he
          exact hK' (pgn, src, gr) rfl (by rw [← e1, ← e2, ← e3]; exact hk)
        rw [set_other _ _ he]; exact hw k' hk hk'

theorem setAt_self (s : Nat → RState) (i : Nat) (x : RState) : setAt s i x i = x := by simp [setAt]

theorem setAt_ne (s : Nat → RState) {i j : Nat} (x : RState) (h : j ≠ i) : setAt s i x j = s j := by
  simp [setAt, h]

theorem ofPort_self {α : Type} (i : Nat) (x : α) (l : List (Nat × α)) : ofPort i ((i, x) :: l) = x :: ofPort i l := by
  simp [ofPort]

theorem ofPort_ne {α : Type} {i j : Nat} (x : α) (l : List (Nat × α)) (h : j ≠ i) :
    ofPort j ((i, x) :: l) = ofPort j l := by
  have : (i == j) = false := by simpa using fun e => h e.symm
  simp [ofPort, this]

theorem ofPort_append {α : Type} (i : Nat) (a b : List (Nat × α)) : ofPort i (a ++ b) = ofPort i a ++ ofPort i b := by
  simp [ofPort]

theorem ofPort_map_self {α : Type} (i : Nat) (o : List α) : ofPort i (o.map (fun x => (i, x))) = o := by
  induction o with
  | nil => rfl
  | cons a o ih => rw [List.map_cons, ofPort_self, ih]

theorem ofPort_map_ne {α : Type} {i j : Nat} (o : List α) (h : j ≠ i) :
    ofPort j (o.map (fun x => (i, x))) = [] := by
  induction o with
  | nil => rfl
  | cons a o ih => rw [List.map_cons, ofPort_ne _ _ h, ih]

theorem sessions_alone (g : Nat → Nat) (fp : List Nat) (K : Nat → Nat × Byte × Nat → Prop)
    (hK : ∀ i j, i ≠ j → ∀ k, K i k → ¬ K j k) (evs : List (Nat × Ev)) :
    ∀ (s : Nat → RState) (m : Partials) (a : Nat → Partials), (∀ i, Agree (K i) (a i) m) →
      (∀ i, ∀ l ∈ linesOf g fp (s i) (a i) (ofPort i evs), ∀ k, streamOf fp l = some k → K i k) →
      ∀ i, (ofPort i (sessions g fp s m evs) <+: (session g fp (s i) (a i) (ofPort i evs)).1) ∧
        ((∀ j, (j, Obs.crash) ∉ sessions g fp s m evs) →
          ofPort i (sessions g fp s m evs) = (session g fp (s i) (a i) (ofPort i evs)).1) := by
  induction evs with
  | nil => intro s m a _ _ i; exact ⟨⟨[], rfl⟩, fun _ => rfl⟩
  | cons x evs ih =>
    obtain ⟨p, e⟩ := x
    intro s m a ha hl i
    -- the step of port `p`, together and alone
    have key : ∃ o, (session g fp (s p) m [e] = (o, none) ∧ session g fp (s p) (a p) [e] = (o, none) ∧
          Obs.crash ∈ o) ∨
        ∃ s' n n', session g fp (s p) m [e] = (o, some (s', n)) ∧
          session g fp (s p) (a p) [e] = (o, some (s', n')) ∧ Agree (K p) n' n ∧
          ∀ j, j ≠ p → Agree (K j) (a j) n := by
      cases hc : completed (s p) e with
      | none =>
        obtain ⟨o, s', hs⟩ := step_none g fp (s p) e hc
        exact ⟨o, Or.inr ⟨s', m, a p, hs m, hs (a p), ha p, fun j _ => ha j⟩⟩
      | some l =>
        obtain ⟨s1, hs⟩ := step_line g fp (s p) e hc
        have hlk : ∀ k, streamOf fp l = some k → K p k := by
          apply hl p l
          rw [ofPort_self, linesOf, hc]
          simp
        have hag := received_agree fp (K p) l hlk (ha p)
        rw [hs m, hs (a p)]
        revert hag
        rcases frameReceived fp (a p) l with e1 | ⟨_ | r1, n1⟩ <;>
          rcases frameReceived fp m l with e2 | ⟨_ | r2, n2⟩ <;> simp only [] <;> intro hag
        · exact ⟨_, Or.inl ⟨rfl, rfl, by simp⟩⟩
        · exact hag.elim
        · exact hag.elim
        · exact hag.elim
        · exact ⟨_, Or.inr ⟨_, _, _, rfl, rfl, hag.2.1, fun j hj =>
            hag.2.2 (K j) (fun k hk => hK p j (Ne.symm hj) k (hlk k hk)) _ (ha j)⟩⟩
        · cases hag.1
        · exact hag.elim
        · cases hag.1
        · have h1 := hag.1
          injection h1 with h1
          subst h1
          exact ⟨_, Or.inr ⟨_, _, _, rfl, rfl, hag.2.1, fun j hj =>
            hag.2.2 (K j) (fun k hk => hK p j (Ne.symm hj) k (hlk k hk)) _ (ha j)⟩⟩
    obtain ⟨o, key⟩ := key
    rcases key with ⟨k1, k2, k3⟩ | ⟨s', n, n', k1, k2, k3, k4⟩
    · have hrun : sessions g fp s m ((p, e) :: evs) = o.map (fun x => (p, x)) := by rw [sessions, k1]
      rw [hrun]
      refine ⟨?_, fun hno => ?_⟩
      · by_cases hip : i = p
        · subst hip
          rw [ofPort_map_self, ofPort_self, session_cons, k2]
          exact List.prefix_rfl
        · rw [ofPort_map_ne _ hip]; exact List.nil_prefix
      · exact absurd (List.mem_map_of_mem k3) (hno p)
    · have hrun : sessions g fp s m ((p, e) :: evs) =
          o.map (fun x => (p, x)) ++ sessions g fp (setAt s p s') n evs := by rw [sessions, k1]
      let a' : Nat → Partials := fun j => if j = p then n' else a j
      have hap : a' p = n' := by simp [a']
      have han : ∀ j, j ≠ p → a' j = a j := by intro j hj; simp [a', hj]
      have h1 : ∀ j, Agree (K j) (a' j) n := by
        intro j
        by_cases hj : j = p
        · subst hj; rw [hap]; exact k3
        · rw [han j hj]; exact k4 j hj
      have h2 : ∀ j, ∀ l ∈ linesOf g fp (setAt s p s' j) (a' j) (ofPort j evs), ∀ k, streamOf fp l = some k → K j k := by
        intro j l hlm
        by_cases hj : j = p
        · subst hj
          rw [hap, setAt_self] at hlm
          apply hl j l
          rw [ofPort_self, linesOf, k2]
          simp [hlm]
        · rw [han j hj, setAt_ne _ _ hj] at hlm
          apply hl j l
          rw [ofPort_ne _ _ hj]
          exact hlm
      obtain ⟨i1, i2⟩ := ih (setAt s p s') n a' h1 h2 i
      rw [hrun, ofPort_append]
      by_cases hip : i = p
      · subst hip
        rw [hap, setAt_self] at i1 i2
        rw [ofPort_map_self, ofPort_self, session_cons, k2]
        refine ⟨(List.prefix_append_right_inj _).mpr i1, fun hno => ?_⟩
        rw [i2 (fun j hj => hno j (List.mem_append_right _ hj))]
      · rw [han i hip, setAt_ne _ _ hip] at i1 i2
        rw [ofPort_map_ne _ hip, ofPort_ne _ _ hip, List.nil_append]
        exact ⟨i1, fun hno => i2 (fun j hj => hno j (List.mem_append_right _ hj))⟩

theorem linesOf_body (g : Nat → Nat) (fp : List Nat) (t : List Byte) (ht : ∀ b ∈ t, ¬ FrameStart b ∧ b ≠ 13) :
    ∀ (s : RState) (m : Partials) (evs : List Ev), s.sof = true →
      ∃ rx, linesOf g fp s m (t.map Ev.byte ++ evs)
        = linesOf g fp ⟨rx, t.foldl (Slice.push g) s.msg, true⟩ m evs := by
  induction t with
  | nil => intro s m evs hs; refine ⟨s.rx, ?_⟩; cases s; simp only at hs; subst hs; rfl
  | cons b t ih =>
    intro s m evs hs
    obtain ⟨h1, h2⟩ := ht b (by simp)
    have e1 : isStart b = false := by
      cases h : isStart b with
      | false => rfl
      | true => exact absurd ((isStart_iff b).1 h) h1
    have e2 : (b == 13) = false := by simpa using h2
    obtain ⟨rx, hr⟩ := ih (fun b hb => ht b (by simp [hb])) ⟨b, s.msg.push g b, true⟩ m evs rfl
    refine ⟨rx, ?_⟩
    rw [List.map_cons, List.cons_append, linesOf]
    simp only [completed, h2, false_and, if_false, Option.toList_none, List.nil_append, session, byteStep, e1, e2,
      hs, Bool.false_eq_true, Bool.false_and, if_true, hr, List.foldl_cons]

/-- Receiving complete lines completes those lines. -/
theorem linesOf_lines (g : Nat → Nat) (fp : List Nat) (lines : List (List Byte)) (hl : ∀ l ∈ lines, IsLine l) :
    ∀ (s : RState) (m : Partials) (l : Slice),
      l ∈ linesOf g fp s m ((lines.flatMap fun l => l ++ [13]).map Ev.byte) → l ∈ lines.map (grown g) := by
  induction lines with
  | nil => intro s m l h; exact h
  | cons x lines ih =>
    intro s m l h
    obtain ⟨c, t, rfl, hc, ht⟩ := hl x (by simp)
    have hcs := (isStart_iff c).2 hc
    have hc13 : c ≠ 13 := by rintro rfl; exact absurd hcs (by decide)
    have hsplit : ((List.flatMap (fun l => l ++ [13]) ((c :: t) :: lines)).map Ev.byte)
        = Ev.byte c :: (t.map Ev.byte ++ Ev.byte 13 ::
            (List.flatMap (fun l => l ++ [13]) lines).map Ev.byte) := by
      simp [List.flatMap_cons]
    rw [hsplit, linesOf] at h
    simp only [completed, hc13, false_and, if_false, Option.toList_none, List.nil_append, session, byteStep, hcs,
      if_true] at h
    obtain ⟨rx, hb⟩ := linesOf_body g fp t ht ⟨c, Slice.nil.push g c, true⟩ m
      (Ev.byte 13 :: (List.flatMap (fun l => l ++ [13]) lines).map Ev.byte) rfl
    rw [hb, linesOf] at h
    have hgr : t.foldl (Slice.push g) (Slice.nil.push g c) = grown g (c :: t) := rfl
    rcases List.mem_append.mp h with h | h
    · simp only [completed, and_self, if_true, hgr, Option.toList_some, List.mem_singleton] at h
      rw [h]; simp
    · rw [List.map_cons]
      apply List.mem_cons_of_mem
      split at h
      · cases h
      · exact ih (fun l hl' => hl l (by simp [hl'])) _ _ _ h

/-! ## Where messages come from -/

/-- The lines completed by all interfaces together, with the interface, in order. -/
def completedBy (g : Nat → Nat) (fp : List Nat) : (Nat → RState) → Partials → List (Nat × Ev) → List (Nat × Slice)
  | _, _, [] => []
  | s, m, (i, e) :: evs =>
    (completed (s i) e).toList.map (fun l => (i, l)) ++ match session g fp (s i) m [e] with
      | (_, none) => []
      | (_, some (s', m')) => completedBy g fp (setAt s i s') m' evs

/-- `t` is a line in `bs`: a frame start, no further one, and a carriage return at the end; carriage returns in
between (after which the text was refused) are left out. -/
def LineIn (bs t : List Byte) : Prop :=
  ∃ pre c suf rest, bs = pre ++ c :: suf ++ 13 :: rest ∧ FrameStart c ∧ (∀ b ∈ suf, ¬ FrameStart b) ∧
    t = c :: suf.filter (· != 13)

theorem LineIn.of_pending {cur t ext : List Byte} (h : Pending cur t) : LineIn (cur ++ 13 :: ext) t := by
  obtain ⟨pre, c, suf, rfl, h1, h2, rfl⟩ := h
  exact ⟨pre, c, suf, ext, by simp, h1, h2, rfl⟩

/-- The reader's locals and what it has heard since the last error. -/
def Fits (s : RState) (last : Byte) (cur : List Byte) : Prop :=
  (s.sof = true → Pending cur s.msg.vis) ∧
  (s.rx = last ∨ (s.sof = false ∧ ¬ FrameStart s.rx ∧ ¬ FrameStart last))

theorem fits_init {last : Byte} (cur : List Byte) (h : ¬ FrameStart last) : Fits RState.init last cur :=
  ⟨fun h => (by cases h), Or.inr ⟨rfl, by unfold FrameStart RState.init; decide, h⟩⟩

theorem not_start_13 : ¬ FrameStart 13 := by unfold FrameStart; decide

theorem not_start_0 : ¬ FrameStart 0 := by unfold FrameStart; decide

theorem isStart_false {b : Byte} (h : ¬ FrameStart b) : isStart b = false := by
  cases hb : isStart b with
  | false => rfl
  | true => exact absurd ((isStart_iff b).1 hb) h

/-- One byte, heard by a reader that has it in its buffer. -/
theorem fits_byte (g : Nat → Nat) (fp : List Nat) {s : RState} {b : Byte} {cur : List Byte}
    (h : s.sof = true → Pending cur s.msg.vis) (hrx : s.rx = b) (m : Partials) :
    (∀ s' m', byteStep g fp s m b = .loop s' m' → Fits s' b (cur ++ [b])) ∧
    (∀ v m', byteStep g fp s m b = .ret v m' → Fits RState.init b (cur ++ [b])) ∧
    (b = 13 → s.sof = true → Pending cur s.msg.vis) := by
  refine ⟨?_, ?_, fun _ hs => h hs⟩
  · intro s' m' hb
    unfold byteStep at hb
    by_cases h1 : isStart b = true
    · rw [if_pos h1] at hb
      injection hb with hb hb'
      subst hb
      refine ⟨fun _ => ?_, Or.inl hrx⟩
      simp only [Slice.push_vis, Slice.nil_vis, List.nil_append]
      exact Pending.start ((isStart_iff b).1 h1)
    · rw [if_neg h1] at hb
      have hns : ¬ FrameStart b := fun hc => h1 ((isStart_iff b).2 hc)
      by_cases h2 : (b == 13 && s.sof) = true
      · rw [if_pos h2] at hb
        simp only [Bool.and_eq_true, beq_iff_eq] at h2
        split at hb
        · cases hb
        · cases hb
        · injection hb with hb hb'
          subst hb
          refine ⟨fun _ => ?_, Or.inl hrx⟩
          rw [h2.1]
          exact (h h2.2).cr
      · rw [if_neg h2] at hb
        by_cases h3 : s.sof = true
        · rw [if_pos h3] at hb
          injection hb with hb hb'
          subst hb
          refine ⟨fun _ => ?_, Or.inl hrx⟩
          simp only [Slice.push_vis]
          refine (h h3).more hns ?_
          rintro rfl
          simp [h3] at h2
        · rw [if_neg h3] at hb
          injection hb with hb hb'
          subst hb
          exact ⟨fun hc => absurd hc h3, Or.inl hrx⟩
  · intro v m' hb
    apply fits_init
    unfold byteStep at hb
    by_cases h1 : isStart b = true
    · rw [if_pos h1] at hb; cases hb
    · exact fun hc => h1 ((isStart_iff b).2 hc)

/-- One outcome of the port. -/
theorem fits_step (g : Nat → Nat) (fp : List Nat) (s : RState) (m : Partials) (e : Ev) (last : Byte) (cur : List Byte)
    (h : Fits s last cur) :
    ∃ last' cur' , (∀ evs, ∃ pre, heard last cur (e :: evs) = pre ++ heard last' cur' evs) ∧
      (∀ o s' m', session g fp s m [e] = (o, some (s', m')) → Fits s' last' cur') ∧
      ∀ l, completed s e = some l → ∀ evs, ∃ bs ∈ heard last cur (e :: evs), LineIn bs l.vis := by
  cases e with
  | fail =>
    refine ⟨0, [], fun evs => ⟨[cur], rfl⟩, ?_, fun l hl => (by cases hl)⟩
    intro o s' m' hs
    simp only [session, Prod.mk.injEq, Option.some.injEq] at hs
    rw [← hs.2.1]
    exact fits_init _ not_start_0
  | byte b =>
    obtain ⟨k1, k2, k3⟩ := fits_byte g fp (s := { s with rx := b }) (b := b) (cur := cur) h.1 rfl m
    refine ⟨b, cur ++ [b], fun evs => ⟨[], rfl⟩, ?_, ?_⟩
    · intro o s' m' hs
      simp only [session] at hs
      cases hb : byteStep g fp { s with rx := b } m b with
      | loop x y =>
        rw [hb] at hs
        simp only [Prod.mk.injEq, Option.some.injEq] at hs
        rw [← hs.2.1]
        exact k1 _ _ hb
      | ret x y =>
        rw [hb] at hs
        simp only [Prod.mk.injEq, Option.some.injEq] at hs
        rw [← hs.2.1]
        exact k2 _ _ hb
      | crash x => rw [hb] at hs; simp at hs
    · intro l hl evs
      simp only [completed] at hl
      split at hl
      · rename_i hc
        injection hl with hl
        subst hl
        obtain ⟨rfl, hsof⟩ := hc
        obtain ⟨ext, segs, he⟩ := heard_head evs 13 (cur ++ [13])
        refine ⟨_, by rw [heard, he]; exact List.mem_cons_self, ?_⟩
        rw [List.append_assoc]
        exact LineIn.of_pending (h.1 hsof)
      · cases hl
  | empty =>
    rcases h with ⟨h1, h2 | ⟨h2, h3, h4⟩⟩
    · obtain ⟨k1, k2, k3⟩ := fits_byte g fp (s := s) (b := last) (cur := cur) h1 h2 m
      refine ⟨last, cur ++ [last], fun evs => ⟨[], rfl⟩, ?_, ?_⟩
      · intro o s' m' hs
        simp only [session] at hs
        rw [h2] at hs
        cases hb : byteStep g fp s m last with
        | loop x y =>
          rw [hb] at hs
          simp only [Prod.mk.injEq, Option.some.injEq] at hs
          rw [← hs.2.1]
          exact k1 _ _ hb
        | ret x y =>
          rw [hb] at hs
          simp only [Prod.mk.injEq, Option.some.injEq] at hs
          rw [← hs.2.1]
          exact k2 _ _ hb
        | crash x => rw [hb] at hs; simp at hs
      · intro l hl evs
        simp only [completed] at hl
        split at hl
        · rename_i hc
          injection hl with hl
          subst hl
          obtain ⟨hc, hsof⟩ := hc
          have hlast : last = 13 := h2.symm.trans hc
          subst hlast
          obtain ⟨ext, segs, he⟩ := heard_head evs 13 (cur ++ [13])
          refine ⟨_, by rw [heard, he]; exact List.mem_cons_self, ?_⟩
          rw [List.append_assoc]
          exact LineIn.of_pending (h1 hsof)
        · cases hl
    · refine ⟨last, cur ++ [last], fun evs => ⟨[], rfl⟩, ?_, ?_⟩
      · intro o s' m' hs
        have hb : byteStep g fp s m s.rx = .loop s m := by
          unfold byteStep
          simp [isStart_false h3, h2]
        simp only [session, hb, Prod.mk.injEq, Option.some.injEq] at hs
        rw [← hs.2.1]
        exact ⟨fun hc => (by rw [h2] at hc; cases hc), Or.inr ⟨h2, h3, h4⟩⟩
      · intro l hl
        simp [completed, h2] at hl

/-- Every line completed at an interface was received by that interface. -/
theorem completedBy_lines (g : Nat → Nat) (fp : List Nat) (evs : List (Nat × Ev)) :
    ∀ (s : Nat → RState) (m : Partials) (last : Nat → Byte) (cur : Nat → List Byte),
      (∀ i, Fits (s i) (last i) (cur i)) → ∀ i l, (i, l) ∈ completedBy g fp s m evs →
      ∃ bs ∈ heard (last i) (cur i) (ofPort i evs), LineIn bs l.vis := by
  induction evs with
  | nil => intro s m last cur _ i l h; cases h
  | cons x evs ih =>
    obtain ⟨p, e⟩ := x
    intro s m last cur hf i l h
    obtain ⟨last', cur', k1, k2, k3⟩ := fits_step g fp (s p) m e (last p) (cur p) (hf p)
    rw [completedBy] at h
    rcases List.mem_append.mp h with h | h
    · obtain ⟨l', hl', he⟩ := List.mem_map.mp h
      simp only [Prod.mk.injEq] at he
      obtain ⟨rfl, rfl⟩ := he
      rw [ofPort_self]
      exact k3 l' (Option.mem_toList.mp hl') _
    · cases hs : session g fp (s p) m [e] with
      | mk o st =>
        rw [hs] at h
        cases st with
        | none => cases h
        | some y =>
          obtain ⟨s', m'⟩ := y
          simp only [] at h
          have hfit := k2 o s' m' hs
          obtain ⟨bs, hb, hl⟩ := ih (setAt s p s') m' (fun j => if j = p then last' else last j)
            (fun j => if j = p then cur' else cur j) (by
              intro j
              by_cases hj : j = p
              · subst hj; rw [setAt_self]; simpa using hfit
              · rw [setAt_ne _ _ hj]; simpa [hj] using hf j) i l h
          by_cases hip : i = p
          · subst hip
            simp only [if_true] at hb
            obtain ⟨pre, hpre⟩ := k1 (ofPort i evs)
            rw [ofPort_self]
            exact ⟨bs, by rw [hpre]; exact List.mem_append_right _ hb, hl⟩
          · simp only [hip, if_false] at hb
            rw [ofPort_ne _ _ hip]
            exact ⟨bs, hb, hl⟩

/-- Every message returned is what receiving the completed lines, those of all interfaces in the order of their
ends, gives for a line of this interface. -/
theorem sessions_sound (g : Nat → Nat) (fp : List Nat) (evs : List (Nat × Ev)) :
    ∀ (s : Nat → RState) (m : Partials) (i : Nat) (x : MsgView), (i, Obs.msg x) ∈ sessions g fp s m evs →
      ∃ pre l outs m', (pre ++ [(i, l)]) <+: completedBy g fp s m evs ∧
        receive fp m ((pre ++ [(i, l)]).map Prod.snd) = .ok (outs ++ [some x], m') := by
  induction evs with
  | nil => intro s m i x h; cases h
  | cons y evs ih =>
    obtain ⟨p, e⟩ := y
    intro s m i x h
    rw [sessions] at h
    rw [completedBy]
    cases hc : completed (s p) e with
    | none =>
      obtain ⟨o, s', hs⟩ := step_none g fp (s p) e hc
      rw [hs m] at h ⊢
      simp only [] at h ⊢
      rcases List.mem_append.mp h with h | h
      · exfalso
        obtain ⟨ob, ho, he⟩ := List.mem_map.mp h
        simp only [Prod.mk.injEq] at he
        obtain ⟨_, rfl⟩ := he
        -- a message is returned only at the end of a line
        have hno : ∀ m, Obs.msg x ∉ (session g fp (s p) m [e]).1 := by
          intro m
          cases e with
          | fail => simp [session]
          | byte b =>
            have h' : ¬(b = 13 ∧ (s p).sof = true) := by
              intro hcc; simp [completed, hcc] at hc
            obtain ⟨s2, hb⟩ := byteStep_none g fp { s p with rx := b } b h'
            simp [session, hb]
          | empty =>
            have h' : ¬((s p).rx = 13 ∧ (s p).sof = true) := by
              intro hcc; simp [completed, hcc] at hc
            obtain ⟨s2, hb⟩ := byteStep_none g fp (s p) (s p).rx h'
            simp [session, hb]
        exact hno m (by rw [hs m]; exact ho)
      · obtain ⟨pre, l, outs, m', k1, k2⟩ := ih _ _ i x h
        exact ⟨pre, l, outs, m', by simpa using k1, k2⟩
    | some l0 =>
      obtain ⟨s1, hs⟩ := step_line g fp (s p) e hc
      rw [hs m] at h ⊢
      cases hr : frameReceived fp m l0 with
      | error er => rw [hr] at h; simp at h
      | ok r =>
        obtain ⟨o, m1⟩ := r
        rw [hr] at h
        cases o with
        | none =>
          simp only [List.map_nil, List.nil_append] at h
          obtain ⟨pre, l, outs, m', k1, k2⟩ := ih _ _ i x h
          refine ⟨(p, l0) :: pre, l, none :: outs, m', ?_, ?_⟩
          · simpa using k1
          · rw [List.cons_append, List.map_cons, receive]
            simp only [hr, k2, bind, Except.bind, pure, Except.pure, Option.map_none, List.cons_append]
        | some f =>
          simp only [List.map_cons, List.map_nil, List.cons_append, List.nil_append] at h
          rcases List.mem_cons.mp h with h | h
          · simp only [Prod.mk.injEq, Obs.msg.injEq] at h
            obtain ⟨rfl, rfl⟩ := h
            refine ⟨[], l0, [], m1, by simp, ?_⟩
            simp [receive, hr, bind, Except.bind, pure, Except.pure]
          · obtain ⟨pre, l, outs, m', k1, k2⟩ := ih _ _ i x h
            refine ⟨(p, l0) :: pre, l, some f.out :: outs, m', ?_, ?_⟩
            · simpa using k1
            · rw [List.cons_append, List.map_cons, receive]
              simp only [hr, k2, bind, Except.bind, pure, Except.pure, Option.map_some, List.cons_append]

/-! ## C96 -/

/-- The interfaces before anything is received. -/
def fresh : Nat → RState := fun _ => RState.init

/-- **C96** (any input): as long as no two interfaces receive fast packets of the same PGN, source and group,
each interface's Reads return what they would if it were the only one, up to the moment another interface
crashes the process.  Bytes, read errors, empty reads and the interleaving are arbitrary. -/
theorem C96_independent_partial (g : Nat → Nat) (fp : List Nat) (evs : List (Nat × Ev))
    (hsep : Separate fp fun i => linesOf g fp RState.init noPartials (ofPort i evs)) (i : Nat) :
    (ofPort i (sessions g fp fresh noPartials evs) <+:
      (session g fp RState.init noPartials (ofPort i evs)).1) ∧
    ((∀ j, (j, Obs.crash) ∉ sessions g fp fresh noPartials evs) →
      ofPort i (sessions g fp fresh noPartials evs) = (session g fp RState.init noPartials (ofPort i evs)).1) := by
  refine sessions_alone g fp
    (fun i k => ∃ l ∈ linesOf g fp RState.init noPartials (ofPort i evs), streamOf fp l = some k) ?_ evs fresh
    noPartials (fun _ => noPartials) (fun i k _ _ => rfl) (fun i l hl k hk => ⟨l, hl, hk⟩) i
  rintro i j hij k ⟨l, hl, hk⟩ ⟨l', hl', hk'⟩
  exact hsep i j hij l hl l' hl' k hk hk'

/-- **C96** (lines): interfaces that receive complete lines, interleaved byte by byte in any way, without
common streams: each interface's Reads return exactly the messages its own lines deliver, in order, and
nothing crashes if no interface would crash by itself. -/
theorem C96_lines_partial (g : Nat → Nat) (fp : List Nat) (evs : List (Nat × Ev)) (lines : Nat → List (List Byte))
    (hc : Carry evs lines) (hl : ∀ i, ∀ l ∈ lines i, IsLine l)
    (hsep : Separate fp fun i => (lines i).map (grown g))
    (outs : Nat → List (Option MsgView))
    (hr : ∀ i, ∃ m', receive fp noPartials ((lines i).map (grown g)) = .ok (outs i, m')) (i : Nat) :
    ofPort i (sessions g fp fresh noPartials evs) = ((outs i).filterMap id).map Obs.msg := by
  have halone : ∀ j, (session g fp RState.init noPartials (ofPort j evs)).1 = ((outs j).filterMap id).map Obs.msg := by
    intro j
    obtain ⟨m', hm⟩ := hr j
    obtain ⟨s', hs⟩ := C27_session g fp (lines j) (hl j) RState.init noPartials (outs j) m' hm
    rw [hc j, hs]
  have hsep' : Separate fp fun i => linesOf g fp RState.init noPartials (ofPort i evs) := by
    intro a b hab l h l' h'
    simp only [hc a, hc b] at h h'
    exact hsep a b hab l (linesOf_lines g fp _ (hl a) _ _ _ h) l' (linesOf_lines g fp _ (hl b) _ _ _ h')
  rw [(C96_independent_partial g fp evs hsep' i).2 ?_, halone i]
  intro j hj
  have h1 : Obs.crash ∈ ofPort j (sessions g fp fresh noPartials evs) :=
    List.mem_map.mpr ⟨_, List.mem_filter.mpr ⟨hj, by simp⟩, rfl⟩
  have h2 := (C96_independent_partial g fp evs hsep' j).1.subset h1
  rw [halone j] at h2
  simp at h2

/-- **C96** (what is returned, in any case): with any number of interfaces receiving anything in any
interleaving, a message returned at an interface is a frame received there (a single frame), or a complete
fast packet assembled from frames 0..k of one PGN, source and group, all of them received in this order and
the last one there, though the others possibly at other interfaces; or a fast packet's continuation frame
received there whose beginning is missing. -/
theorem C96_origin (g : Nat → Nat) (fp : List Nat) (evs : List (Nat × Ev)) (i : Nat) (x : MsgView)
    (h : (i, Obs.msg x) ∈ sessions g fp fresh noPartials evs) :
    ∃ (pre : List (Nat × Slice)) (l : Slice) (v : MsgView),
      (∀ j t, (j, t) ∈ pre ++ [(i, l)] → ∃ bs ∈ heard 0 [] (ofPort j evs), LineIn bs t.vis) ∧
      parsed l = .frame v ∧ Delivered fp (frames ((pre ++ [(i, l)]).map Prod.snd)) v x := by
  obtain ⟨pre, l, outs, m', k1, k2⟩ := sessions_sound g fp evs fresh noPartials i x h
  obtain ⟨h1, h2⟩ := C25_partial fp _ _ _ k2
  have hlen : pre.length = outs.length := by simpa using h1.symm
  obtain ⟨v, h3, h4⟩ := (h2 pre.length l (some x) (by simp) (by rw [hlen]; simp)).1 x rfl
  refine ⟨pre, l, v, ?_, h3, ?_⟩
  · intro j t ht
    exact completedBy_lines g fp evs fresh noPartials (fun _ => 0) (fun _ => []) (fun j => fits_init _ not_start_0)
      j t (k1.subset ht)
  · rw [List.take_of_length_le (by simp)] at h4
    exact h4

/-- Two adapters on two buses, each with a station 5 sending a fast packet of PGN 129029. -/
def busA : List (List Byte) := [(line 0x0D 0xF8 0x05 5 [0x00, 8, 1, 2, 3, 4, 5, 6]).vis, (line 0x0D 0xF8 0x05 5 [0x01, 7, 8]).vis]

/-- The second bus. -/
def busB : List (List Byte) :=
  [(line 0x0D 0xF8 0x05 5 [0x00, 8, 11, 12, 13, 14, 15, 16]).vis, (line 0x0D 0xF8 0x05 5 [0x01, 17, 18]).vis]

/-- What the adapters of a list of (interface, line) send. -/
def sent (ls : List (Nat × List Byte)) : List (Nat × Ev) :=
  ls.flatMap fun x => (x.2 ++ [13]).map fun b => (x.1, Ev.byte b)

/-- **C96** is false: when two adapters receive a packet of the same PGN, source and group at the same time,
the first interface returns a message that was sent on neither bus, and the second one a fragment; alone,
each returns its own packet. -/
theorem C96_false :
    sessions (fun _ => 0) [129029] fresh noPartials (sent (busA.map fun l => (0, l))) =
      [(0, .msg ⟨3, 129029, 5, 255, 8, [1, 2, 3, 4, 5, 6, 7, 8]⟩)] ∧
    sessions (fun _ => 0) [129029] fresh noPartials (sent (busB.map fun l => (1, l))) =
      [(1, .msg ⟨3, 129029, 5, 255, 8, [11, 12, 13, 14, 15, 16, 17, 18]⟩)] ∧
    sessions (fun _ => 0) [129029] fresh noPartials
        (sent [(0, busA.getD 0 []), (1, busB.getD 0 []), (0, busA.getD 1 []), (1, busB.getD 1 [])]) =
      [(0, .msg ⟨3, 129029, 5, 255, 8, [11, 12, 13, 14, 15, 16, 7, 8]⟩),
       (1, .msg ⟨3, 129029, 5, 255, 3, [0x01, 17, 18]⟩)] :=
  ⟨by decide +kernel, by decide +kernel, by decide +kernel⟩

/-- A third bus, with station 6 instead. -/
def busC : List (List Byte) :=
  [(line 0x0D 0xF8 0x05 6 [0x00, 8, 11, 12, 13, 14, 15, 16]).vis, (line 0x0D 0xF8 0x05 6 [0x01, 17, 18]).vis]

/-- The lines of buses A and C. -/
def buses (i : Nat) : List (List Byte) := if i = 0 then busA else if i = 1 then busC else []

/-- Their lines interleaved. -/
def mixedAC : List (Nat × Ev) :=
  sent [(0, busA.getD 0 []), (1, busC.getD 0 []), (0, busA.getD 1 []), (1, busC.getD 1 [])]

theorem isLine_of {l : List Byte} (h : ∃ c t, l = c :: t ∧ isStart c = true ∧ ∀ b ∈ t, isStart b = false ∧ b ≠ 13) :
    IsLine l := by
  obtain ⟨c, t, e, hc, ht⟩ := h
  refine ⟨c, t, e, (isStart_iff c).1 hc, fun b hb => ⟨fun hs => ?_, (ht b hb).2⟩⟩
  have := (ht b hb).1
  rw [(isStart_iff b).2 hs] at this
  cases this

/-- The hypotheses of `C96_lines_partial` (and with them those of `C96_independent_partial`) hold for the
interleaved buses A and C; both packets are returned. -/
example : Carry mixedAC buses ∧ (∀ i, ∀ l ∈ buses i, IsLine l) ∧
    (Separate [129029] fun i => (buses i).map (grown fun _ => 0)) ∧
    (∀ i, ∃ m', receive [129029] noPartials ((buses i).map (grown fun _ => 0)) =
      .ok (if i = 0 then [none, some ⟨3, 129029, 5, 255, 8, [1, 2, 3, 4, 5, 6, 7, 8]⟩]
        else if i = 1 then [none, some ⟨3, 129029, 6, 255, 8, [11, 12, 13, 14, 15, 16, 17, 18]⟩] else [], m')) := by
  have h2 : ∀ i, i ≠ 0 → i ≠ 1 → buses i = [] := by intro i h h'; simp [buses, h, h']
  refine ⟨?_, ?_, ?_, ?_⟩
  · intro i
    by_cases h0 : i = 0
    · subst h0; decide +kernel
    by_cases h1 : i = 1
    · subst h1; decide +kernel
    rw [h2 i h0 h1]
    have a0 : ¬ (0 = i) := fun e => h0 e.symm
    have a1 : ¬ (1 = i) := fun e => h1 e.symm
    simp [ofPort, mixedAC, sent, a0, a1, List.filter_map, Function.comp_def]
  · intro i l hl
    apply isLine_of
    by_cases h0 : i = 0
    · subst h0
      have hl : l ∈ busA := hl
      rcases List.mem_cons.mp hl with rfl | hl
      · exact ⟨_, _, rfl, by decide, by decide +kernel⟩
      · rw [List.mem_singleton.mp hl]; exact ⟨_, _, rfl, by decide, by decide +kernel⟩
    by_cases h1 : i = 1
    · subst h1
      have hl : l ∈ busC := hl
      rcases List.mem_cons.mp hl with rfl | hl
      · exact ⟨_, _, rfl, by decide, by decide +kernel⟩
      · rw [List.mem_singleton.mp hl]; exact ⟨_, _, rfl, by decide, by decide +kernel⟩
    rw [h2 i h0 h1] at hl
    cases hl
  · intro i j hij l hl l' hl' k hk hk'
    have key : ∀ i, ∀ l ∈ (buses i).map (grown fun _ => 0), ∀ k, streamOf [129029] l = some k →
        (i = 0 ∧ k = (129029, 5, 0)) ∨ (i = 1 ∧ k = (129029, 6, 0)) := by
      intro i l hl k hk
      by_cases h0 : i = 0
      · subst h0
        have : ∀ l ∈ busA.map (grown fun _ => 0), streamOf [129029] l = some (129029, 5, 0) := by decide +kernel
        rw [this l hl] at hk
        exact Or.inl ⟨rfl, (Option.some.inj hk).symm⟩
      by_cases h1 : i = 1
      · subst h1
        have : ∀ l ∈ busC.map (grown fun _ => 0), streamOf [129029] l = some (129029, 6, 0) := by decide +kernel
        rw [this l hl] at hk
        exact Or.inr ⟨rfl, (Option.some.inj hk).symm⟩
      rw [h2 i h0 h1] at hl
      cases hl
    rcases key i l hl k hk with ⟨e, e'⟩ | ⟨e, e'⟩ <;> rcases key j l' hl' k hk' with ⟨f, f'⟩ | ⟨f, f'⟩
    · exact hij (e.trans f.symm)
    · rw [e'] at f'; revert f'; decide
    · rw [e'] at f'; revert f'; decide
    · exact hij (e.trans f.symm)
  · intro i
    by_cases h0 : i = 0
    · subst h0; exact ⟨_, rfl⟩
    by_cases h1 : i = 1
    · subst h1; exact ⟨_, rfl⟩
    rw [h2 i h0 h1, if_neg h0, if_neg h1]
    exact ⟨_, rfl⟩

end Argo.Canusb
