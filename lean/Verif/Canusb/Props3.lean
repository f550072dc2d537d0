import Verif.Canusb.Props2

set_option autoImplicit false

/-!
# Properties of package `canusb`: isolation, soundness and memory of reassembly (C23–C26)
-/

namespace Argo.Canusb
open CanSpec

/-- The stream a received line belongs to: PGN, source and group number modulo 4, for a well-formed
line of a registered fast-packet PGN with at least one data byte. -/
def streamOf (fp : List Nat) (l : Slice) : Option (Nat × Byte × Nat) :=
  match parsed l with
  | .frame v =>
    if isFastPacket fp v.pgn then
      match v.data with
      | [] => none
      | h :: _ => some (v.pgn, v.source, h.toNat / 32 % 4)
    else none
  | _ => none

theorem reassemble_slow (fp : List Nat) (m : Partials) (fr : CanFrame)
    (hf : isFastPacket fp fr.pgn = false) : reassemble fp m fr = .ok (some fr, m) := by
  simp [reassemble, hf]

theorem parsed_not_frame {l : Slice} (h : ∀ v, parsed l ≠ .frame v) :
    (∃ e, ParseFrame l = .error e) ∨ ∃ e, ParseFrame l = .ok (.error e) := by
  unfold parsed at h
  cases hp : ParseFrame l with
  | error e => exact Or.inl ⟨e, rfl⟩
  | ok r =>
    cases r with
    | error e => exact Or.inr ⟨e, rfl⟩
    | ok f => rw [hp] at h; exact absurd rfl (h f.out)

/-- A line outside every stream is handled without looking at or changing the partial messages. -/
theorem received_other (fp : List Nat) (l : Slice) (h : streamOf fp l = none) :
    ∃ r : GoM (Option CanFrame), ∀ m, frameReceived fp m l = r.map (fun o => (o, m)) := by
  unfold streamOf at h
  cases hp : parsed l with
  | frame v =>
    obtain ⟨fr, hpf, hout⟩ := parsed_frame hp
    have e1 : fr.pgn = v.pgn := congrArg MsgView.pgn hout
    have e2 : fr.data = v.data := congrArg MsgView.data hout
    simp only [hp] at h
    cases hf : isFastPacket fp v.pgn with
    | false =>
      refine ⟨.ok (some fr), fun m => ?_⟩
      rw [frameReceived_parsed hpf, reassemble_slow fp m fr (by rw [e1]; exact hf)]
      rfl
    | true =>
      simp only [hf, if_true] at h
      cases hd : v.data with
      | nil =>
        refine ⟨.error .index, fun m => ?_⟩
        rw [frameReceived_parsed hpf, reassemble]
        rw [e1, hf, if_pos rfl, e2, hd]
        rfl
      | cons a b => rw [hd] at h; cases h
  | error =>
    rcases parsed_not_frame (l := l) (fun v => by rw [hp]; simp) with ⟨e, he⟩ | ⟨e, he⟩
    · exact ⟨.error e, fun m => by simp [frameReceived, he, bind, Except.bind, Except.map]⟩
    · exact ⟨.ok none, fun m => by simp [frameReceived, he, bind, Except.bind, Except.map, pure, Except.pure]⟩
  | panic =>
    rcases parsed_not_frame (l := l) (fun v => by rw [hp]; simp) with ⟨e, he⟩ | ⟨e, he⟩
    · exact ⟨.error e, fun m => by simp [frameReceived, he, bind, Except.bind, Except.map]⟩
    · exact ⟨.ok none, fun m => by simp [frameReceived, he, bind, Except.bind, Except.map, pure, Except.pure]⟩

/-- A line of a stream depends only on, and changes only, the partial message of that stream. -/
theorem received_stream (fp : List Nat) (l : Slice) (pgn : Nat) (src : Byte) (g : Nat)
    (h : streamOf fp l = some (pgn, src, g)) :
    pgn < 2 ^ 18 ∧ ∃ c : Option CanFrame → GoM (Option CanFrame × Option CanFrame),
      ∀ m, frameReceived fp m l = (do
        let (o, x) ← c (m (slot g pgn src))
        .ok (o, m.set (slot g pgn src) x)) := by
  unfold streamOf at h
  cases hp : parsed l with
  | frame v =>
    obtain ⟨fr, hpf, hout⟩ := parsed_frame hp
    have hpgn := parsed_pgn hp
    simp only [hp] at h
    split at h
    · rename_i hf
      split at h
      · cases h
      · rename_i a b hd
        injection h with h
        obtain ⟨h1, h2, h3⟩ : v.pgn = pgn ∧ v.source = src ∧ a.toNat / 32 % 4 = g := by
          simpa using h
        subst h1; subst h2; subst h3
        have e1 : fr.pgn = v.pgn := congrArg MsgView.pgn hout
        have e2 : fr.source = v.source := congrArg MsgView.source hout
        have e3 : fr.data = a :: b := by rw [← hd, ← hout]; rfl
        refine ⟨hpgn, fun x => core x fr, fun m => ?_⟩
        rw [frameReceived_parsed hpf,
          reassemble_core fp m fr a b (by rw [e1]; exact hf) e3 (by omega), e1, e2]
    · cases h
  | error => rw [hp] at h; cases h
  | panic => rw [hp] at h; cases h

/-- C23: in any interleaving of lines (of any streams, non-fast-packet lines and rejected lines), the
lines of one stream are answered, and leave their partial message, exactly as if they had been received
alone, from any state that agrees on this stream's partial message. -/
theorem C23_isolation (fp : List Nat) (pgn : Nat) (src : Byte) (g : Nat) (hp : pgn < 2 ^ 18)
    (ls : List Slice) : ∀ (m m2 : Partials) (outs : List (Option MsgView)) (m' : Partials),
    m2 (slot g pgn src) = m (slot g pgn src) → receive fp m ls = .ok (outs, m') →
    ∃ m2', receive fp m2 (ls.filter fun l => streamOf fp l = some (pgn, src, g))
        = .ok (((ls.zip outs).filter fun lo => streamOf fp lo.1 = some (pgn, src, g)).map Prod.snd, m2')
      ∧ m2' (slot g pgn src) = m' (slot g pgn src) := by
  induction ls with
  | nil =>
    intro m m2 outs m' hm h
    simp only [receive] at h
    injection h with h
    simp only [Prod.mk.injEq] at h
    obtain ⟨rfl, rfl⟩ := h
    exact ⟨m2, rfl, hm⟩
  | cons l ls ih =>
    intro m m2 outs m' hm h
    simp only [receive, bind, Except.bind, pure, Except.pure] at h
    cases hr : frameReceived fp m l with
    | error e => rw [hr] at h; cases h
    | ok r =>
      obtain ⟨o, m1⟩ := r
      rw [hr] at h
      simp only [] at h
      cases hr2 : receive fp m1 ls with
      | error e => rw [hr2] at h; cases h
      | ok r2 =>
        obtain ⟨os, m3⟩ := r2
        rw [hr2] at h
        simp only [Except.ok.injEq, Prod.mk.injEq] at h
        obtain ⟨rfl, rfl⟩ := h
        by_cases hs : streamOf fp l = some (pgn, src, g)
        · obtain ⟨_, c, hc⟩ := received_stream fp l pgn src g hs
          have h1 := hc m
          have h2 := hc m2
          rw [hr] at h1
          cases hcc : c (m (slot g pgn src)) with
          | error e => rw [hcc] at h1; cases h1
          | ok x =>
            obtain ⟨o', x⟩ := x
            rw [hcc] at h1
            simp only [bind, Except.bind, Except.ok.injEq, Prod.mk.injEq] at h1
            obtain ⟨rfl, rfl⟩ := h1
            rw [hm, hcc] at h2
            simp only [bind, Except.bind] at h2
            obtain ⟨m2', i1, i2⟩ := ih _ (m2.set (slot g pgn src) x) os m3
              (by simp [Partials.set]) hr2
            refine ⟨m2', ?_, i2⟩
            rw [List.filter_cons_of_pos (by simpa using hs)]
            simp only [receive, h2, bind, Except.bind, i1, pure, Except.pure, List.zip_cons_cons]
            rw [List.filter_cons_of_pos (by simpa using hs), List.map_cons]
        · have hm1 : m1 (slot g pgn src) = m (slot g pgn src) := by
            cases hst : streamOf fp l with
            | none =>
              obtain ⟨r, hrr⟩ := received_other fp l hst
              have h1 := hrr m
              rw [hr] at h1
              cases r with
              | error e => cases h1
              | ok y => injection h1 with h1; simp only [Prod.mk.injEq] at h1; rw [h1.2]
            | some t =>
              obtain ⟨pgn', src', g'⟩ := t
              obtain ⟨hp', c, hc⟩ := received_stream fp l pgn' src' g' hst
              have h1 := hc m
              rw [hr] at h1
              cases hcc : c (m (slot g' pgn' src')) with
              | error e => rw [hcc] at h1; cases h1
              | ok x =>
                rw [hcc] at h1
                simp only [bind, Except.bind, Except.ok.injEq, Prod.mk.injEq] at h1
                rw [h1.2]
                unfold Partials.set
                rw [if_neg]
                intro he
                obtain ⟨e1, e2, e3⟩ := slot_inj hp hp' he
                rw [hst, e1, e2, e3] at hs
                exact hs rfl
          obtain ⟨m2', i1, i2⟩ := ih m1 m2 os m3 (by rw [hm, hm1]) hr2
          refine ⟨m2', ?_, i2⟩
          rw [List.filter_cons_of_neg (by simpa using hs), i1, List.zip_cons_cons,
            List.filter_cons_of_neg (by simpa using hs)]

/-! ## Soundness and memory -/

/-- The well-formed frames among the lines received. -/
def frames (ls : List Slice) : List MsgView :=
  ls.filterMap fun l => match parsed l with
    | .frame v => some v
    | _ => none

/-- Every stored partial message is the incomplete assembly of a chain of frames received so far,
stored under its stream. -/
def Sound (fp : List Nat) (hist : List MsgView) (m : Partials) : Prop :=
  ∀ u part, m u = some part → ∃ g fs k, fs.Sublist hist ∧ Chain g fs part.out k ∧ part.seq.toNat = k ∧
    u = slot g part.pgn part.source ∧ part.pgn < 2 ^ 18 ∧ part.data.length < part.length.toNat ∧
    isFastPacket fp part.pgn = true

/-- What may be delivered for the frame `v`, given the frames received up to and including it. -/
def Delivered (fp : List Nat) (hist : List MsgView) (v o : MsgView) : Prop :=
  if isFastPacket fp v.pgn then
    (∃ g fs k, (fs ++ [v]).Sublist hist ∧ Chain g (fs ++ [v]) o k ∧ o.length.toNat ≤ o.data.length) ∨
    (o = v ∧ ∃ h c, v.data = h :: c ∧ h.toNat % 32 ≠ 0)
  else o = v

theorem Sound.mono {fp : List Nat} {hist : List MsgView} {m : Partials} (h : Sound fp hist m)
    (v : MsgView) : Sound fp (hist ++ [v]) m := by
  intro u part hu
  obtain ⟨g, fs, k, h1, h2⟩ := h u part hu
  exact ⟨g, fs, k, h1.trans (List.sublist_append_left ..), h2⟩

theorem Sound.set {fp : List Nat} {hist : List MsgView} {m : Partials} (h : Sound fp hist m)
    (u : Nat) (x : Option CanFrame)
    (hx : ∀ part, x = some part → ∃ g fs k, fs.Sublist hist ∧ Chain g fs part.out k ∧
      part.seq.toNat = k ∧ u = slot g part.pgn part.source ∧ part.pgn < 2 ^ 18 ∧
      part.data.length < part.length.toNat ∧ isFastPacket fp part.pgn = true) :
    Sound fp hist (m.set u x) := by
  intro u' part hu
  unfold Partials.set at hu
  split at hu
  · rename_i e; subst e; exact hx part hu
  · exact h u' part hu

theorem sound_step (fp : List Nat) (hist : List MsgView) (m : Partials) (fr : CanFrame)
    (hp : fr.pgn < 2 ^ 18) (hs : Sound fp hist m) (o : Option CanFrame) (m' : Partials)
    (h : reassemble fp m fr = .ok (o, m')) :
    Sound fp (hist ++ [fr.out]) m' ∧ ∀ x, o = some x → Delivered fp (hist ++ [fr.out]) fr.out x.out := by
  have eP : fr.out.pgn = fr.pgn := rfl
  have eD : fr.out.data = fr.data := rfl
  cases hf : isFastPacket fp fr.pgn with
  | false =>
    rw [reassemble_slow fp m fr hf] at h
    injection h with h
    simp only [Prod.mk.injEq] at h
    obtain ⟨rfl, rfl⟩ := h
    refine ⟨hs.mono _, ?_⟩
    intro x hx
    injection hx with hx
    subst hx
    simp [Delivered, eP, hf]
  | true =>
    cases hd : fr.data with
    | nil => simp [reassemble, hf, hd] at h
    | cons d0 rest =>
      rw [reassemble_core fp m fr d0 rest hf hd hp] at h
      simp only [core, hd] at h
      by_cases h0 : d0.toNat % 32 = 0
      · simp only [if_pos h0] at h
        cases rest with
        | nil => cases h
        | cons d1 data =>
          simp only [] at h
          have hch := Chain.first (g := d0.toNat / 32 % 4) (f := fr.out) (h := d0) (n := d1) (c := data)
            (by rw [eD, hd]) h0 rfl
          split at h
          · rename_i hc
            simp only [bind, Except.bind, Except.ok.injEq, Prod.mk.injEq] at h
            obtain ⟨rfl, rfl⟩ := h
            refine ⟨(hs.mono _).set _ _ (by intro p hp; cases hp), ?_⟩
            intro x hx
            injection hx with hx
            subst hx
            simp only [Delivered, eP, hf, if_true]
            exact Or.inl ⟨_, [], 0, by simp, hch, hc⟩
          · rename_i hc
            simp only [bind, Except.bind, Except.ok.injEq, Prod.mk.injEq] at h
            obtain ⟨rfl, rfl⟩ := h
            refine ⟨(hs.mono _).set _ _ ?_, by intro x hx; cases hx⟩
            intro part hpart
            injection hpart with hpart
            subst hpart
            exact ⟨_, [fr.out], 0, by simp, hch, by simp only [seq_toNat]; exact h0, rfl, hp,
              Nat.not_le.1 hc, hf⟩
      · simp only [if_neg h0] at h
        cases hm : m (slot (d0.toNat / 32 % 4) fr.pgn fr.source) with
        | none =>
          rw [hm] at h
          simp only [bind, Except.bind, Except.ok.injEq, Prod.mk.injEq] at h
          obtain ⟨rfl, rfl⟩ := h
          refine ⟨(hs.mono _).set _ _ (by intro p hp; cases hp), ?_⟩
          intro x hx
          injection hx with hx
          subst hx
          simp only [Delivered, eP, hf, if_true]
          refine Or.inr ⟨?_, d0, rest, by rw [eD, hd], h0⟩
          simp [CanFrame.out, hd]
        | some part =>
          rw [hm] at h
          obtain ⟨g, fs, k, s1, s2, s3, s4, s5, s6, s7⟩ := hs _ part hm
          obtain ⟨g1, g2, g3⟩ := slot_inj hp s5 s4
          simp only [] at h
          split at h
          · rename_i hseq
            have hk : d0.toNat % 32 = k + 1 := by
              rw [← seq_toNat, ← hseq, UInt8.toNat_add, s3, show (1 : UInt8).toNat = 1 from rfl]
              have hb := seq_toNat d0
              rw [← hseq, UInt8.toNat_add, s3, show (1 : UInt8).toNat = 1 from rfl] at hb
              have := part.seq.toNat_lt
              omega
            have hch := Chain.next (f := fr.out) (h := d0) (c := rest) s2 s6 g2 g3 (by rw [eD, hd]) hk g1
            split at h
            · rename_i hc
              simp only [bind, Except.bind, Except.ok.injEq, Prod.mk.injEq] at h
              obtain ⟨rfl, rfl⟩ := h
              refine ⟨(hs.mono _).set _ _ (by intro p hp; cases hp), ?_⟩
              intro x hx
              injection hx with hx
              subst hx
              simp only [Delivered, eP, hf, if_true]
              exact Or.inl ⟨_, fs, k + 1, s1.append_right _, hch, hc⟩
            · rename_i hc
              simp only [bind, Except.bind, Except.ok.injEq, Prod.mk.injEq] at h
              obtain ⟨rfl, rfl⟩ := h
              refine ⟨(hs.mono _).set _ _ ?_, by intro x hx; cases hx⟩
              intro p' hpart
              injection hpart with hpart
              subst hpart
              refine ⟨_, fs ++ [fr.out], k + 1, s1.append_right _, hch, by simp only [seq_toNat]; exact hk, ?_, s5,
                Nat.not_le.1 hc, s7⟩
              rw [← s4]
          · simp only [bind, Except.bind, Except.ok.injEq, Prod.mk.injEq] at h
            obtain ⟨rfl, rfl⟩ := h
            rw [← hm, set_self]
            refine ⟨hs.mono _, ?_⟩
            intro x hx
            injection hx with hx
            subst hx
            simp only [Delivered, eP, hf, if_true]
            refine Or.inr ⟨?_, d0, rest, by rw [eD, hd], h0⟩
            simp [CanFrame.out, hd]

theorem sound_run (fp : List Nat) (ls : List Slice) : ∀ (hist : List MsgView) (m : Partials)
    (outs : List (Option MsgView)) (m' : Partials), Sound fp hist m →
    receive fp m ls = .ok (outs, m') →
    Sound fp (hist ++ frames ls) m' ∧ outs.length = ls.length ∧
    ∀ n l o, ls[n]? = some l → outs[n]? = some o →
      (∀ x, o = some x → ∃ v, parsed l = .frame v ∧
        Delivered fp (hist ++ frames (ls.take (n + 1))) v x) ∧
      (∀ v, parsed l = .frame v → isFastPacket fp v.pgn = false → o = some v) := by
  induction ls with
  | nil =>
    intro hist m outs m' hs h
    simp only [receive] at h
    injection h with h
    simp only [Prod.mk.injEq] at h
    obtain ⟨rfl, rfl⟩ := h
    refine ⟨by simpa [frames] using hs, rfl, ?_⟩
    intro n l o hl; simp at hl
  | cons l ls ih =>
    intro hist m outs m' hs h
    simp only [receive, bind, Except.bind, pure, Except.pure] at h
    cases hr : frameReceived fp m l with
    | error e => rw [hr] at h; cases h
    | ok r =>
      obtain ⟨o, m1⟩ := r
      rw [hr] at h
      simp only [] at h
      cases hr2 : receive fp m1 ls with
      | error e => rw [hr2] at h; cases h
      | ok r2 =>
        obtain ⟨os, m3⟩ := r2
        rw [hr2] at h
        simp only [Except.ok.injEq, Prod.mk.injEq] at h
        obtain ⟨rfl, rfl⟩ := h
        by_cases hpv : ∃ v, parsed l = .frame v
        · obtain ⟨v, hv⟩ := hpv
          obtain ⟨fr, hpf, hout⟩ := parsed_frame hv
          have hpgn : fr.pgn < 2 ^ 18 := by
            have := parsed_pgn hv
            rw [← hout] at this; exact this
          rw [frameReceived_parsed hpf] at hr
          obtain ⟨st1, st2⟩ := sound_step fp hist m fr hpgn hs o m1 hr
          rw [hout] at st1 st2
          have hfr : ∀ t, frames (l :: t) = v :: frames t := by
            intro t; simp [frames, hv]
          obtain ⟨i1, i2, i3⟩ := ih (hist ++ [v]) m1 os m3 st1 hr2
          refine ⟨by rw [hfr]; simpa using i1, by simp [i2], ?_⟩
          intro n l' o' hl ho
          cases n with
          | zero =>
            simp only [List.getElem?_cons_zero, Option.some.injEq] at hl ho
            subst hl; subst ho
            constructor
            · intro x hx
              cases o with
              | none => cases hx
              | some y =>
                simp only [Option.map_some, Option.some.injEq] at hx
                subst hx
                refine ⟨v, hv, ?_⟩
                have := st2 y rfl
                rw [List.take_succ_cons, hfr]
                simpa [frames] using this
            · intro v' hv' hnf
              rw [hv] at hv'
              injection hv' with hv'
              subst hv'
              rw [reassemble_slow fp m fr (by rw [← hout] at hnf; exact hnf)] at hr
              injection hr with hr
              simp only [Prod.mk.injEq] at hr
              rw [← hr.1, Option.map_some, hout]
          | succ n =>
            simp only [List.getElem?_cons_succ] at hl ho
            obtain ⟨j1, j2⟩ := i3 n l' o' hl ho
            refine ⟨?_, j2⟩
            intro x hx
            obtain ⟨w, w1, w2⟩ := j1 x hx
            refine ⟨w, w1, ?_⟩
            rw [List.take_succ_cons, hfr]
            simpa using w2
        · have hno : ∀ v, parsed l ≠ .frame v := fun v hv => hpv ⟨v, hv⟩
          have hom : o = none ∧ m1 = m := by
            rcases parsed_not_frame hno with ⟨e, he⟩ | ⟨e, he⟩
            · rw [frameReceived, he] at hr; cases hr
            · rw [frameReceived, he] at hr
              simp only [bind, Except.bind, pure, Except.pure, Except.ok.injEq, Prod.mk.injEq] at hr
              exact ⟨hr.1.symm, hr.2.symm⟩
          obtain ⟨rfl, rfl⟩ := hom
          have hfr : ∀ t, frames (l :: t) = frames t := by
            intro t
            unfold frames
            rw [List.filterMap_cons]
            split
            · rfl
            · rename_i x hx
              split at hx
              · rename_i v hv; exact absurd hv (hno v)
              · cases hx
          obtain ⟨i1, i2, i3⟩ := ih hist m1 os m3 hs hr2
          refine ⟨by rw [hfr]; exact i1, by simp [i2], ?_⟩
          intro n l' o' hl ho
          cases n with
          | zero =>
            simp only [List.getElem?_cons_zero, Option.some.injEq] at hl ho
            subst hl; subst ho
            exact ⟨fun x hx => (by cases hx), fun v hv => absurd hv (hno v)⟩
          | succ n =>
            simp only [List.getElem?_cons_succ] at hl ho
            obtain ⟨j1, j2⟩ := i3 n l' o' hl ho
            refine ⟨?_, j2⟩
            intro x hx
            obtain ⟨w, w1, w2⟩ := j1 x hx
            refine ⟨w, w1, ?_⟩
            rw [List.take_succ_cons, hfr]
            exact w2

/-- The empty partial-message map the process starts with (canframe.go:40). -/
def noPartials : Partials := fun _ => none

/-- C25 (what holds): in every history of lines since start-up, each answer belongs to the line that
caused it; a frame that is not a registered fast packet is delivered unchanged, always; for a fast
packet, a delivery is either the complete assembly of a chain of frames 0..k of one PGN, source and
group, taken in order from the history and ending with this one, or this very frame unassembled, and
then it is a continuation frame. -/
theorem C25_partial (fp : List Nat) (ls : List Slice) (outs : List (Option MsgView)) (m' : Partials)
    (h : receive fp noPartials ls = .ok (outs, m')) :
    outs.length = ls.length ∧ ∀ n l o, ls[n]? = some l → outs[n]? = some o →
      (∀ x, o = some x → ∃ v, parsed l = .frame v ∧ Delivered fp (frames (ls.take (n + 1))) v x) ∧
      (∀ v, parsed l = .frame v → isFastPacket fp v.pgn = false → o = some v) := by
  obtain ⟨_, h2, h3⟩ := sound_run fp ls [] noPartials outs m' (by intro u p hu; cases hu) h
  exact ⟨h2, by simpa using h3⟩

/-- C26: at every moment a stored partial message holds fewer bytes than it announced (so at most
254), from at most 32 frames, and it is stored under the stream of frames actually received; distinct
streams use distinct keys. -/
theorem C26_memory (fp : List Nat) (ls : List Slice) (outs : List (Option MsgView)) (m' : Partials)
    (h : receive fp noPartials ls = .ok (outs, m')) (u : Nat) (part : CanFrame)
    (hu : m' u = some part) :
    part.data.length < part.length.toNat ∧ part.data.length ≤ 254 ∧
    ∃ g fs k, fs.length ≤ 32 ∧ fs.Sublist (frames ls) ∧ Chain g fs part.out k ∧
      u = slot g part.pgn part.source ∧ isFastPacket fp part.pgn = true := by
  obtain ⟨h1, _, _⟩ := sound_run fp ls [] noPartials outs m' (by intro u p hu; cases hu) h
  obtain ⟨g, fs, k, s1, s2, s3, s4, s5, s6, s7⟩ := h1 u part hu
  refine ⟨s6, ?_, g, fs, k, ?_, by simpa using s1, s2, s4, s7⟩
  · have := part.length.toNat_lt; omega
  · have : ∀ {g fs v k}, Chain g fs v k → fs.length = k + 1 ∧ k < 32 := by
      intro g fs v k hc
      induction hc with
      | first => exact ⟨rfl, by omega⟩
      | next _ _ _ _ _ hk _ ih => rw [List.length_append, ih.1]; exact ⟨rfl, by omega⟩
    have := this s2
    omega

theorem C26_keys {g pgn g' pgn' : Nat} {src src' : Byte} (hp : pgn < 2 ^ 18) (hp' : pgn' < 2 ^ 18)
    (h : slot g pgn src = slot g' pgn' src') : g = g' ∧ pgn = pgn' ∧ src = src' :=
  slot_inj hp hp' h

/-! ## Counterexamples -/

/-- A line for the extended identifier `b0 b1 b2 b3` and data `d`, with a timestamp. -/
def line (b0 b1 b2 b3 : Byte) (d : List Byte) : Slice := ⟨bodyText b0 b1 b2 b3 d ++ [48, 48, 48, 48], []⟩

/-- C25 is false: a continuation frame whose beginning was lost is delivered as a message of its own,
header byte included. -/
theorem C25_false : ∃ (fp : List Nat) (l : Slice) (v : MsgView),
    parsed l = .frame v ∧ isFastPacket fp v.pgn = true ∧ v.data.head? = some 0x41 ∧
    (receive fp noPartials [l]).toOption.map Prod.fst = some [some v] :=
  ⟨[129029], line 0x0D 0xF8 0x05 5 [0x41, 1, 2, 3, 4, 5, 6, 7],
    { priority := 3, pgn := 129029, source := 5, destination := 255, length := 8,
      data := [0x41, 1, 2, 3, 4, 5, 6, 7] }, by decide, by decide, by decide, by decide⟩

/-- C24 is false for groups: three frames, group 0 started with payload `1..6`, group 4 started with
payload `11..16`, then group 0's second frame: what is delivered is a mixture. -/
theorem C24_false_group :
    (receive [129029] noPartials
      [line 0x0D 0xF8 0x05 5 [0x00, 8, 1, 2, 3, 4, 5, 6], line 0x0D 0xF8 0x05 5 [0x80, 8, 11, 12, 13, 14, 15, 16],
       line 0x0D 0xF8 0x05 5 [0x01, 7, 8]]).toOption.map Prod.fst
      = some [none, none, some { priority := 3, pgn := 129029, source := 5, destination := 255,
                                 length := 8, data := [11, 12, 13, 14, 15, 16, 7, 8] }] := by decide

/-- C24 is false for destinations: two addressed messages (PGN 126208 to stations 1 and 2) of one
source and group are mixed. -/
theorem C24_false_destination :
    (receive [126208] noPartials
      [line 0x0D 0xED 0x01 5 [0x00, 8, 1, 2, 3, 4, 5, 6], line 0x0D 0xED 0x02 5 [0x00, 8, 11, 12, 13, 14, 15, 16],
       line 0x0D 0xED 0x01 5 [0x01, 7, 8]]).toOption.map Prod.fst
      = some [none, none, some { priority := 3, pgn := 126208, source := 5, destination := 2,
                                 length := 8, data := [11, 12, 13, 14, 15, 16, 7, 8] }] := by decide

/-- C23, C25, C26 hypotheses are met by a history with two interleaved streams: both complete. -/
theorem two_streams :
    (receive [129029] noPartials
      [line 0x0D 0xF8 0x05 5 [0x00, 8, 1, 2, 3, 4, 5, 6], line 0x0D 0xF8 0x05 5 [0x20, 8, 11, 12, 13, 14, 15, 16],
       line 0x0D 0xF8 0x05 5 [0x01, 7, 8], line 0x0D 0xF8 0x05 5 [0x21, 17, 18]]).toOption.map Prod.fst
      = some [none, none,
          some { priority := 3, pgn := 129029, source := 5, destination := 255, length := 8
                 data := [1, 2, 3, 4, 5, 6, 7, 8] },
          some { priority := 3, pgn := 129029, source := 5, destination := 255, length := 8
                 data := [11, 12, 13, 14, 15, 16, 17, 18] }] := by decide

/-- A partial message is really stored (hypothesis of C26). -/
example : ∃ outs m' part, receive [129029] noPartials [line 0x0D 0xF8 0x05 5 [0x00, 8, 1, 2, 3, 4, 5, 6]]
    = .ok (outs, m') ∧ m' (slot 0 129029 5) = some part ∧ part.data = [1, 2, 3, 4, 5, 6] :=
  ⟨_, _, _, rfl, rfl, rfl⟩

end Argo.Canusb
