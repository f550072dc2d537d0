import Verif.Canusb.Props5

set_option autoImplicit false

/-!
# Properties of package `canusb`: failing writes, consecutive fast packets, crashing frames
(C85, and C16 for whole frames)
-/

namespace Argo.Canusb
open CanSpec

/-! ## C85 -/

/-- Sum of the counts the port reports for `n` consecutive writes from number `k` on. -/
def countSum (port : Port) (k : Nat) : Nat → Nat
  | 0 => 0
  | n + 1 => (port.script k).1 + countSum port (k + 1) n

theorem writeAll_all (ts : List (List Byte)) : ∀ (port : Port) (total : Nat),
    (∀ i < ts.length, (port.script (port.log.length + i)).2 = none) →
    writeAll port ts total = ((total + countSum port port.log.length ts.length, none),
      { port with log := port.log ++ ts }) := by
  induction ts with
  | nil => intro port total _; simp [writeAll, countSum]
  | cons t ts ih =>
    intro port total h
    have h0 := h 0 (by simp)
    rw [Nat.add_zero] at h0
    have hc : ∀ (n k : Nat) (l : List (List Byte)), countSum { port with log := l } k n = countSum port k n := by
      intro n
      induction n with
      | zero => intro _ _; rfl
      | succ n ihn => intro k l; simp only [countSum, ihn]
    have := ih { port with log := port.log ++ [t] } (total + (port.script port.log.length).1) (by
      intro i hi
      have := h (i + 1) (by simp; omega)
      simpa [Nat.add_assoc, Nat.add_comm 1] using this)
    cases hs : port.script port.log.length with
    | mk n err =>
      rw [hs] at h0 this
      simp only at h0
      subst h0
      simp only [writeAll, Port.write, hs]
      rw [this]
      simp only [hc, List.length_append, List.length_cons, List.length_nil, countSum, hs, Nat.zero_add,
        List.append_assoc, List.singleton_append]
      simp only [Nat.add_assoc]

theorem writeAll_fails (ts : List (List Byte)) : ∀ (port : Port) (total i : Nat) (e : Err), i < ts.length →
    (∀ j < i, (port.script (port.log.length + j)).2 = none) →
    (port.script (port.log.length + i)).2 = some e →
    writeAll port ts total = (port.script (port.log.length + i),
      { port with log := port.log ++ ts.take (i + 1) }) := by
  induction ts with
  | nil => intro _ _ _ _ h; simp at h
  | cons t ts ih =>
    intro port total i e hi hok he
    cases i with
    | zero =>
      rw [Nat.add_zero] at he ⊢
      cases hs : port.script port.log.length with
      | mk n err =>
        rw [hs] at he
        simp only at he
        subst he
        simp [writeAll, Port.write, hs]
    | succ i =>
      have h0 := hok 0 (by omega)
      rw [Nat.add_zero] at h0
      have := ih { port with log := port.log ++ [t] } (total + (port.script port.log.length).1) i e
        (by simpa using hi)
        (by
          intro j hj
          have := hok (j + 1) (by omega)
          simpa [Nat.add_assoc, Nat.add_comm 1] using this)
        (by simpa [Nat.add_assoc, Nat.add_comm 1] using he)
      cases hs : port.script port.log.length with
      | mk n err =>
        rw [hs] at h0 this
        simp only at h0
        subst h0
        simp only [writeAll, Port.write, hs]
        rw [this]
        simp [Nat.add_assoc, Nat.add_comm 1]

/-- C85: a fast-packet `Send` (9 to 223 bytes) never panics.  It intends one text per frame; another
station reads the texts as the frames of the payload under the port's group number.  If every write
succeeds all of them are written and the sum of the counts is returned; if the `i`-th is the first to
fail, exactly the texts up to and including it were passed to the port and its result is returned.
Either way the group number has advanced by one, and address and openness are unchanged. -/
theorem C85_writes (p : CanPort) (f : RawMessage) (h9 : 9 ≤ f.data.vis.length)
    (h223 : f.data.vis.length ≤ 223) :
    ∃ (bodies : List (List Byte)) (r : Nat × Option Err) (p' : CanPort), Send p f = .ok (r, p') ∧
      (∀ (stamp spare : Nat → List Byte), (∀ i, (stamp i).length = 4) →
        Parses (bodies.mapIdx fun i b => ⟨b ++ stamp i, spare i⟩)
          ((fastFields 6 p.group.toNat f.data.vis).map (withField (asReceived p.a f.view)))) ∧
      p'.group = p.group + 1 ∧ p'.a = p.a ∧ p'.isOpen = p.isOpen ∧ p'.port.script = p.port.script ∧
      ((∀ i < bodies.length, (p.port.script (p.port.log.length + i)).2 = none) →
        r = (countSum p.port p.port.log.length bodies.length, none) ∧
        p'.port.log = p.port.log ++ bodies.map (· ++ [13])) ∧
      (∀ i e, i < bodies.length → (∀ j < i, (p.port.script (p.port.log.length + j)).2 = none) →
        (p.port.script (p.port.log.length + i)).2 = some e →
        r = p.port.script (p.port.log.length + i) ∧
        p'.port.log = p.port.log ++ (bodies.take (i + 1)).map (· ++ [13])) := by
  have hmap : ((fastFields 6 p.group.toNat f.data.vis).map fun d => fieldText p.a f d ++ [13])
      = ((fastFields 6 p.group.toNat f.data.vis).map (fieldText p.a f)).map (· ++ [13]) := by
    simp [Function.comp_def]
  have hscr : ∀ (ts : List (List Byte)) (port : Port) (total : Nat),
      (writeAll port ts total).2.script = port.script := by
    intro ts
    induction ts with
    | nil => intro _ _; rfl
    | cons t ts ih =>
      intro port total
      cases hs : port.script port.log.length with
      | mk n err => cases err with
        | some e => simp [writeAll, Port.write, hs]
        | none => simp only [writeAll, Port.write, hs]; rw [ih]
  refine ⟨(fastFields 6 p.group.toNat f.data.vis).map (fieldText p.a f), _, _, Send_fast p f h9 h223,
    fun stamp spare hs => texts_parse p.a f _
      (fun d hd => (fastFields_sizes 6 _ (by omega) (by omega) _ d hd).2) stamp spare hs,
    rfl, rfl, rfl, hscr _ _ _, ?_, ?_⟩
  · intro h
    rw [hmap, writeAll_all _ p.port 0 (by simpa using h)]
    simp
  · intro i e hi hok he
    rw [hmap, writeAll_fails _ p.port 0 i e (by simpa using hi) hok he]
    simp [List.map_take]

/-- C85: more than 223 bytes are refused: an error, nothing written, nothing changed. -/
theorem C85_too_long (p : CanPort) (f : RawMessage) (h : 223 < f.data.vis.length) :
    ∃ e, Send p f = .ok ((0, some e), p) := by
  have h1 : ¬ f.data.vis.length ≤ 8 := by omega
  have h2 : ¬ (f.data.vis.length > 8 ∧ f.data.vis.length ≤ 223) := by omega
  refine ⟨.msg "cannot send data larger than fast packets", ?_⟩
  simp only [Send, setAt, List.length_replicate, List.length_set, bind, Except.bind, h1, h2, if_false,
    Nat.reduceLT, if_true]
  rfl

/-- C85: `Send` never panics, whatever the message and the port. -/
theorem C85_total (p : CanPort) (f : RawMessage) : ∃ r, Send p f = .ok r := by
  by_cases h8 : f.data.vis.length ≤ 8
  · by_cases hl : f.length.toNat ≤ f.data.vis.length
    · obtain ⟨_, h, _⟩ := C19_sends p f h8 hl; exact ⟨_, h⟩
    · obtain ⟨_, h⟩ := C19_short p f h8 (by omega); exact ⟨_, h⟩
  · by_cases h223 : f.data.vis.length ≤ 223
    · exact ⟨_, Send_fast p f (by omega) h223⟩
    · obtain ⟨_, h⟩ := C85_too_long p f (by omega); exact ⟨_, h⟩

/-- Successive `Send` calls; a failing one does not stop the caller. -/
def sendMany : CanPort → List RawMessage → GoM (List (Nat × Option Err) × CanPort)
  | p, [] => .ok ([], p)
  | p, f :: fs => do
    let (r, p') ← Send p f
    let (rs, p'') ← sendMany p' fs
    return (r :: rs, p'')

/-- The frames of several fast packets, the first with group number `g`, the next with `g + 1`, ... -/
def manyFrames (a : Byte) : Nat → List RawMessage → List MsgView
  | _, [] => []
  | g, f :: fs => (fastFields 6 g f.data.vis).map (withField (asReceived a f.view)) ++ manyFrames a (g + 1) fs

theorem fastFields_mod (n g : Nat) (xs : List Byte) : fastFields n (g % 256) xs = fastFields n g xs := by
  have hh : ∀ k, fpHeader (g % 256) k = fpHeader g k := by
    intro k; unfold fpHeader; rw [show g % 256 % 8 = g % 8 by omega]
  have hl : ∀ (N : Nat) (xs : List Byte) (k : Nat), xs.length ≤ N →
      laterFields n (g % 256) k xs = laterFields n g k xs := by
    intro N
    induction N with
    | zero =>
      intro xs k hx
      have : xs = [] := List.length_eq_zero_iff.1 (by omega)
      subst this
      rw [laterFields_nil, laterFields_nil]
    | succ N ih =>
      intro xs k hx
      by_cases h : xs = []
      · subst h; rw [laterFields_nil, laterFields_nil]
      · by_cases hn : n = 0
        · subst hn
          have e : ∀ g', laterFields 0 g' k xs = [] := fun g' => by rw [laterFields]; simp
          rw [e, e]
        · have := List.length_pos_iff.2 h
          rw [laterFields_cons n _ _ _ (by omega) h, laterFields_cons n _ _ _ (by omega) h, hh,
            ih _ _ (by rw [List.length_drop]; omega)]
  unfold fastFields
  rw [hh, hl _ _ _ (Nat.le_refl _)]

theorem Parses.append {a b : List Slice} {va vb : List MsgView} (h1 : Parses a va) (h2 : Parses b vb) :
    Parses (a ++ b) (va ++ vb) := by
  induction a generalizing va with
  | nil => match va, h1 with
    | [], _ => exact h2
  | cons l a ih => match va, h1 with
    | v :: va, h1 => exact ⟨h1.1, ih h1.2⟩

/-- C85: fast packets sent one after the other carry consecutive group numbers (modulo 8), whatever
was sent before, so up to eight consecutive packets of one PGN are distinguishable. -/
theorem C85_groups (fs : List RawMessage) : ∀ (p : CanPort),
    (∀ f ∈ fs, 9 ≤ f.data.vis.length ∧ f.data.vis.length ≤ 223) → (∀ k, (p.port.script k).2 = none) →
    ∃ (bodies : List (List Byte)) (rs : _) (p' : _), sendMany p fs = .ok (rs, p') ∧
      (∀ r ∈ rs, r.2 = none) ∧ rs.length = fs.length ∧
      p'.port.log = p.port.log ++ bodies.map (· ++ [13]) ∧
      ∀ (stamp spare : Nat → List Byte), (∀ i, (stamp i).length = 4) →
        Parses (bodies.mapIdx fun i b => ⟨b ++ stamp i, spare i⟩) (manyFrames p.a p.group.toNat fs) := by
  induction fs with
  | nil =>
    intro p _ _
    exact ⟨[], [], p, rfl, by simp, rfl, by simp, fun _ _ _ => trivial⟩
  | cons f fs ih =>
    intro p hl hok
    obtain ⟨b1, r, p1, h1, h2, h3, h4, h5, h6, h7, -⟩ :=
      C85_writes p f (hl f (by simp)).1 (hl f (by simp)).2
    obtain ⟨h8, h9⟩ := h7 (fun i _ => hok _)
    obtain ⟨b2, rs, p2, i1, i2, i3, i4, i5⟩ := ih p1 (fun f hf => hl f (by simp [hf]))
      (by rw [h6]; exact hok)
    refine ⟨b1 ++ b2, r :: rs, p2, ?_, ?_, by simp [i3], ?_, ?_⟩
    · simp only [sendMany, h1, i1, bind, Except.bind, pure, Except.pure]
    · intro x hx
      rcases List.mem_cons.1 hx with rfl | hx
      · rw [h8]
      · exact i2 x hx
    · rw [i4, h9]; simp
    · intro stamp spare hs
      rw [List.mapIdx_append, manyFrames]
      have := i5 (fun i => stamp (i + b1.length)) (fun i => spare (i + b1.length)) (fun i => hs _)
      rw [h4, h3] at this
      have hmany : ∀ (fs : List RawMessage) (g : Nat), manyFrames p.a (g % 256) fs = manyFrames p.a g fs := by
        intro fs
        induction fs with
        | nil => intro _; rfl
        | cons f fs ihf =>
          intro g
          simp only [manyFrames]
          rw [fastFields_mod, ← ihf (g % 256 + 1), ← ihf (g + 1)]
          congr 2
          omega
      have hg : manyFrames p.a (p.group + 1).toNat fs = manyFrames p.a (p.group.toNat + 1) fs := by
        rw [UInt8.toNat_add]; exact hmany _ _
      rw [hg] at this
      exact (h2 stamp spare hs).append this

/-- Hypotheses met: two 20-byte messages through a working port; the second fails in its second
frame. -/
def flakyPort : CanPort :=
  { samplePort with port := ⟨[], fun k => if k = 5 then (1, some .io) else (27, none)⟩, group := 7 }

example : ∃ rs p', sendMany flakyPort [sampleLong, sampleLong] = .ok (rs, p') ∧
    rs.map (·.2.isSome) = [false, true] ∧ p'.group = 9 := by
  refine ⟨_, _, rfl, ?_⟩
  decide

/-! ## C16 for whole frames -/

/-- C16, exactly: receiving a line crashes the reader iff parsing it does (`C16_partial` says when),
or it is a frame of a fast-packet PGN without data, or a first fast-packet frame without the size
byte. -/
theorem C16_receive_partial (fp : List Nat) (m : Partials) (t sp : List Byte) :
    (∃ e, frameReceived fp m ⟨t, sp⟩ = .error e) ↔
      parsed ⟨t, sp⟩ = .panic ∨
      ∃ v, parsed ⟨t, sp⟩ = .frame v ∧ isFastPacket fp v.pgn = true ∧
        (v.data = [] ∨ ∃ h, v.data = [h] ∧ h.toNat % 32 = 0) := by
  unfold parsed
  cases hp : ParseFrame ⟨t, sp⟩ with
  | error e => simp [frameReceived, hp, bind, Except.bind]
  | ok r =>
    cases r with
    | error e => simp [frameReceived, hp, bind, Except.bind, pure, Except.pure]
    | ok fr =>
      rw [frameReceived_parsed hp]
      have hv : parsed ⟨t, sp⟩ = .frame fr.out := by unfold parsed; rw [hp]
      have hpgn : fr.pgn < 2 ^ 18 := parsed_pgn hv
      simp only [reduceCtorEq, false_or, Parsed.frame.injEq, exists_eq_left']
      have hd : fr.out.data = fr.data := rfl
      have hpg : fr.out.pgn = fr.pgn := rfl
      rw [hd, hpg]
      by_cases hf : isFastPacket fp fr.pgn = true
      · cases hdat : fr.data with
        | nil => simp [reassemble, hf, hdat]
        | cons h rest =>
          rw [reassemble_core fp m fr h rest hf hdat hpgn]
          simp only [core, hdat, hf, true_and, reduceCtorEq, false_or, List.cons.injEq]
          by_cases h0 : h.toNat % 32 = 0
          · simp only [if_pos h0]
            cases rest with
            | nil => simp [bind, Except.bind, h0]
            | cons d1 data =>
              simp only [reduceCtorEq, and_false, false_and, exists_false, iff_false]
              by_cases hc : data.length ≥ d1.toNat <;> simp [hc, bind, Except.bind]
          · have : ¬ ∃ h', (h = h' ∧ rest = []) ∧ h'.toNat % 32 = 0 := by
              rintro ⟨h', ⟨rfl, -⟩, h2⟩; exact h0 h2
            simp only [if_neg h0]
            constructor
            · rintro ⟨e, he⟩
              exfalso
              cases hm : m (slot (h.toNat / 32 % 4) fr.pgn fr.source) with
              | none => rw [hm] at he; simp [bind, Except.bind] at he
              | some q =>
                rw [hm] at he
                by_cases h1 : q.seq + 1 = h &&& 0x1F
                · by_cases hc : (q.data ++ rest).length ≥ q.length.toNat
                  · simp only [if_pos h1, if_pos hc, bind, Except.bind] at he; cases he
                  · simp only [if_pos h1, if_neg hc, bind, Except.bind] at he; cases he
                · simp only [if_neg h1, bind, Except.bind] at he; cases he
            · intro h; exact absurd h this
      · simp [reassemble, hf]

/-- Both disjuncts occur: a fast-packet PGN with no data, and a first frame without size byte. -/
example : (∃ e, frameReceived [129029] noPartials ⟨"T0DF8050500001".toList.map Char.toUInt8, []⟩ = .error e) ∧
    (∃ e, frameReceived [129029] noPartials ⟨"T0DF805051200001".toList.map Char.toUInt8, []⟩ = .error e) := by
  exact ⟨⟨.index, rfl⟩, ⟨.index, rfl⟩⟩

end Argo.Canusb
