import Verif.Canusb.Props

set_option autoImplicit false

/-! Helper lemmas for package canusb: reassembly. -/

namespace Argo.Canusb
open CanSpec

/-- Successive `frameReceived` calls (canport.go:286-348), one per received line. -/
def receive (fp : List Nat) : Partials → List Slice → GoM (List (Option MsgView) × Partials)
  | m, [] => .ok ([], m)
  | m, l :: ls => do
    let (o, m') ← frameReceived fp m l
    let (os, m'') ← receive fp m' ls
    return (o.map CanFrame.out :: os, m'')

theorem seq_toNat (h : Byte) : (h &&& 0x1F).toNat = h.toNat % 32 := by
  rw [UInt8.toNat_and]
  exact Nat.and_two_pow_sub_one_eq_mod _ 5

theorem grp_toNat (h : Byte) : ((h &&& 0x70) >>> 5).toNat = h.toNat / 32 % 4 := by
  rw [UInt8.toNat_shiftRight, UInt8.toNat_and]
  have e : (5 : UInt8).toNat % 8 = 5 := rfl
  rw [e, show (0x70 : UInt8).toNat = 0x70 from rfl, Nat.shiftRight_and_distrib,
    Nat.shiftRight_eq_div_pow]
  exact Nat.and_two_pow_sub_one_eq_mod _ 2

theorem seq_ext {a b : Byte} (h : a.toNat = b.toNat) : a = b := UInt8.toNat_inj.1 h

/-- The slot of a stream. -/
def slot (g pgn : Nat) (src : Byte) : Nat := g * 2 ^ 28 + pgn * 2 ^ 8 + src.toNat

theorem uidOf_slot (h : Byte) (pgn : Nat) (src : Byte) (hp : pgn < 2 ^ 18) :
    uidOf ((h &&& 0x70) >>> 5) pgn src = slot (h.toNat / 32 % 4) pgn src := by
  unfold uidOf slot
  rw [grp_toNat]
  simp only [Nat.shiftLeft_eq]
  have := src.toNat_lt
  omega

theorem slot_inj {g pgn g' pgn' : Nat} {src src' : Byte} (hp : pgn < 2 ^ 18) (hp' : pgn' < 2 ^ 18)
    (h : slot g pgn src = slot g' pgn' src') : g = g' ∧ pgn = pgn' ∧ src = src' := by
  unfold slot at h
  have := src.toNat_lt
  have := src'.toNat_lt
  refine ⟨by omega, by omega, ?_⟩
  exact UInt8.toNat_inj.1 (by omega)

/-- What `reassemble` does with a frame of a fast-packet PGN, given the stored partial message of
its stream: delivery and new content of the slot. -/
def core (part : Option CanFrame) (frame : CanFrame) : GoM (Option CanFrame × Option CanFrame) :=
  match frame.data with
  | [] => .error .index
  | d0 :: rest =>
    let frame : CanFrame := { frame with seq := d0 &&& 0x1F, grp := (d0 &&& 0x70) >>> 5 }
    if d0.toNat % 32 = 0 then
      match rest with
      | [] => .error .index
      | d1 :: data =>
        let frame : CanFrame := { frame with length := d1, data := data }
        if data.length ≥ d1.toNat then .ok (some frame, none) else .ok (none, some frame)
    else
      match part with
      | some p =>
        if p.seq + 1 = d0 &&& 0x1F then
          let p : CanFrame := { p with data := p.data ++ rest, seq := d0 &&& 0x1F }
          if p.data.length ≥ p.length.toNat then .ok (some p, none) else .ok (none, some p)
        else .ok (some frame, some p)
      | none => .ok (some frame, none)

theorem set_self (m : Partials) (u : Nat) : m.set u (m u) = m := by
  funext k; unfold Partials.set; split <;> simp [*]

theorem reassemble_core (fp : List Nat) (m : Partials) (fr : CanFrame) (h : Byte) (rest : List Byte)
    (hf : isFastPacket fp fr.pgn = true) (hd : fr.data = h :: rest) (hp : fr.pgn < 2 ^ 18) :
    reassemble fp m fr = (do
      let (o, x) ← core (m (slot (h.toNat / 32 % 4) fr.pgn fr.source)) fr
      .ok (o, m.set (slot (h.toNat / 32 % 4) fr.pgn fr.source) x)) := by
  have hs : ((h &&& 0x1F) == 0) = decide (h.toNat % 32 = 0) := by
    rw [← seq_toNat]
    rw [Bool.eq_iff_iff]; simp [← UInt8.toNat_inj]
  unfold reassemble core
  simp only [hf, if_true, hd, uidOf_slot h fr.pgn fr.source hp, hs, decide_eq_true_eq]
  by_cases h0 : h.toNat % 32 = 0
  · simp only [if_pos h0]
    cases rest with
    | nil => rfl
    | cons d1 data =>
      by_cases hc : data.length ≥ d1.toNat
      · simp only [if_pos hc]; rfl
      · simp only [if_neg hc]; rfl
  · simp only [if_neg h0]
    cases hm : m (slot (h.toNat / 32 % 4) fr.pgn fr.source) with
    | none =>
      simp only [bind, Except.bind]
      rw [← hm, set_self]
    | some p =>
      simp only [beq_iff_eq]
      by_cases h1 : p.seq + 1 = h &&& 0x1F
      · simp only [if_pos h1]
        by_cases hc : (p.data ++ rest).length ≥ p.length.toNat
        · simp only [if_pos hc]; rfl
        · simp only [if_neg hc]; rfl
      · simp only [if_neg h1, bind, Except.bind]
        rw [← hm, set_self]

theorem parsed_frame {s : Slice} {v : MsgView} (h : parsed s = .frame v) :
    ∃ fr, ParseFrame s = .ok (.ok fr) ∧ fr.out = v := by
  unfold parsed at h
  split at h
  · cases h
  · rename_i fr hf; injection h with h; exact ⟨fr, hf, h⟩
  · cases h

theorem parsed_pgn {p sp : List Byte} {v : MsgView} (h : parsed ⟨p, sp⟩ = .frame v) : v.pgn < 2 ^ 18 := by
  obtain ⟨id, data, _, rfl⟩ := (C15_accepts p sp v).1 h
  simp only [decoded]
  split <;> omega

theorem frameReceived_parsed {fp : List Nat} {m : Partials} {s : Slice} {fr : CanFrame}
    (h : ParseFrame s = .ok (.ok fr)) : frameReceived fp m s = reassemble fp m fr := by
  simp [frameReceived, h, bind, Except.bind]

theorem receive_append (fp : List Nat) (m : Partials) (a b : List Slice) :
    receive fp m (a ++ b) = (do
      let (o1, m1) ← receive fp m a
      let (o2, m2) ← receive fp m1 b
      return (o1 ++ o2, m2)) := by
  induction a generalizing m with
  | nil =>
    simp only [List.nil_append, receive, bind, Except.bind, pure, Except.pure]
    cases receive fp m b <;> rfl
  | cons l a ih =>
    simp only [List.cons_append, receive, bind, Except.bind]
    cases frameReceived fp m l with
    | error e => rfl
    | ok r =>
      simp only [ih, bind, Except.bind]
      cases receive fp r.2 a with
      | error e => rfl
      | ok r1 =>
        simp only [pure, Except.pure]
        cases receive fp r1.2 b <;> rfl

/-- Lines and the frames they parse to. -/
def Parses : List Slice → List MsgView → Prop
  | [], [] => True
  | l :: ls, v :: vs => parsed l = .frame v ∧ Parses ls vs
  | _, _ => False

theorem Parses.append_inv {ls : List Slice} {vs : List MsgView} {v : MsgView}
    (h : Parses ls (vs ++ [v])) : ∃ ls' l, ls = ls' ++ [l] ∧ Parses ls' vs ∧ parsed l = .frame v := by
  induction vs generalizing ls with
  | nil =>
    match ls, h with
    | [l], h => exact ⟨[], l, rfl, trivial, h.1⟩
  | cons w vs ih =>
    match ls, h with
    | l :: ls, h =>
      obtain ⟨ls', l', e, h1, h2⟩ := ih h.2
      exact ⟨l :: ls', l', by rw [e]; rfl, ⟨h.1, h1⟩, h2⟩

theorem Parses.length {ls : List Slice} {vs : List MsgView} (h : Parses ls vs) :
    ls.length = vs.length := by
  induction ls generalizing vs with
  | nil => match vs, h with
    | [], _ => rfl
  | cons l ls ih => match vs, h with
    | v :: vs, h => simp [ih h.2]

/-- Receiving the lines of a chain, from any state: nothing is delivered before the last frame; at
the last frame the assembled message is delivered if complete and stored otherwise. -/
theorem chain_received (fp : List Nat) (m : Partials) (g : Nat) (fs : List MsgView) (v : MsgView)
    (k : Nat) (hc : Chain g fs v k) (ls : List Slice) (hl : Parses ls fs)
    (hfast : isFastPacket fp v.pgn = true) :
    fs.length = k + 1 ∧ v.pgn < 2 ^ 18 ∧ k < 32 ∧
    if v.data.length < v.length.toNat then
      ∃ part : CanFrame, part.out = v ∧ part.seq.toNat = k ∧
        receive fp m ls = .ok (List.replicate (k + 1) none, m.set (slot g v.pgn v.source) (some part))
    else receive fp m ls = .ok (List.replicate k none ++ [some v], m.set (slot g v.pgn v.source) none) := by
  induction hc generalizing ls with
  | @first f h n c hd h0 hg =>
    match ls, hl with
    | [l], hl =>
      obtain ⟨fr, hpf, hout⟩ := parsed_frame hl.1
      have hpgn : f.pgn < 2 ^ 18 := parsed_pgn hl.1
      have e1 : fr.pgn = f.pgn := congrArg MsgView.pgn hout
      have e2 : fr.source = f.source := congrArg MsgView.source hout
      have e3 : fr.data = h :: n :: c := by rw [← hd, ← hout]; rfl
      have hstep := reassemble_core fp m fr h (n :: c) (by rw [e1]; exact hfast) e3 (by omega)
      rw [hg, e1, e2] at hstep
      refine ⟨rfl, hpgn, by omega, ?_⟩
      simp only [core, e3, if_pos h0] at hstep
      by_cases hlen : c.length < n.toNat
      · simp only [if_pos hlen]
        rw [if_neg (by omega)] at hstep
        simp only [bind, Except.bind] at hstep
        refine ⟨{ fr with length := n, data := c, seq := h &&& 0x1F, grp := (h &&& 0x70) >>> 5 },
          ?_, ?_, ?_⟩
        rotate_left 2
        · simp only [receive, frameReceived_parsed hpf, hstep, bind, Except.bind, pure, Except.pure,
            Option.map_none, List.replicate]
        · subst hout; rfl
        · simp only [seq_toNat]; exact h0
      · simp only [if_neg hlen]
        rw [if_pos (by omega)] at hstep
        simp only [bind, Except.bind] at hstep
        simp only [receive, frameReceived_parsed hpf, hstep, bind, Except.bind, pure, Except.pure,
            Option.map_some, List.replicate, List.nil_append]
        subst hout; rfl
  | @next fs v f k h c hch hinc hpgn hsrc hd hk hg ih =>
    obtain ⟨ls', l, rfl, hl1, hl2⟩ := hl.append_inv
    obtain ⟨i1, i2, i3, i4⟩ := ih ls' hl1 hfast
    rw [if_pos hinc] at i4
    obtain ⟨part, p1, p2, p3⟩ := i4
    obtain ⟨fr, hpf, hout⟩ := parsed_frame hl2
    have e1 : fr.pgn = v.pgn := by rw [← hpgn]; exact congrArg MsgView.pgn hout
    have e2 : fr.source = v.source := by rw [← hsrc]; exact congrArg MsgView.source hout
    have e3 : fr.data = h :: c := by rw [← hd, ← hout]; rfl
    have hstep := reassemble_core fp (m.set (slot g v.pgn v.source) (some part)) fr h c
      (by rw [e1]; exact hfast) e3 (by omega)
    rw [hg, e1, e2] at hstep
    have hslot : (m.set (slot g v.pgn v.source) (some part)) (slot g v.pgn v.source) = some part := by
      simp [Partials.set]
    have hss : ∀ x, (m.set (slot g v.pgn v.source) (some part)).set (slot g v.pgn v.source) x
        = m.set (slot g v.pgn v.source) x := by
      intro x; funext u; unfold Partials.set; split <;> simp [*]
    have hseq : part.seq + 1 = h &&& 0x1F := by
      apply seq_ext
      rw [seq_toNat, UInt8.toNat_add, p2, hk, show (1 : UInt8).toNat = 1 from rfl]
      omega
    have hne : ¬ (h.toNat % 32 = 0) := by omega
    rw [hslot] at hstep
    simp only [core, e3, if_neg hne, if_pos hseq, hss] at hstep
    have pd : part.data = v.data := congrArg MsgView.data p1
    have pl : part.length = v.length := congrArg MsgView.length p1
    refine ⟨by simp [i1], i2, by omega, ?_⟩
    by_cases hlen : (v.data ++ c).length < v.length.toNat
    · simp only [if_pos hlen]
      rw [if_neg (by rw [pd, pl]; omega)] at hstep
      simp only [bind, Except.bind] at hstep
      refine ⟨{ part with data := part.data ++ c, seq := h &&& 0x1F }, ?_, ?_, ?_⟩
      rotate_left 2
      · simp only [receive_append, p3, receive, frameReceived_parsed hpf, hstep, bind, Except.bind,
          pure, Except.pure, Option.map_none]
        rw [List.replicate_succ' (n := k + 1)]
      · subst p1; rfl
      · simp only [seq_toNat]; exact hk
    · simp only [if_neg hlen]
      rw [if_pos (by rw [pd, pl]; omega)] at hstep
      simp only [bind, Except.bind] at hstep
      simp only [receive_append, p3, receive, frameReceived_parsed hpf, hstep, bind, Except.bind,
          pure, Except.pure, Option.map_some]
      subst p1; rfl

end Argo.Canusb
