import Verif.Canusb.Props3

set_option autoImplicit false

/-!
# Properties of package `canusb`: fast-packet transmission (C20, C21)
-/

namespace Argo.Canusb
open CanSpec

theorem copyInto_eq (dst : List Byte) (a : Nat) (src : List Byte) (h : a + src.length ≤ dst.length) :
    copyInto dst a src = dst.take a ++ src ++ dst.drop (a + src.length) := by
  have : min (dst.length - a) src.length = src.length := by omega
  simp only [copyInto, copyAt, this, List.take_length]

theorem sent_header (grp : Byte) (seq : Nat) :
    UInt8.ofNat (seq &&& 0x1f) + (grp &&& 0x7) <<< 5 = fpHeader grp.toNat seq := by
  apply UInt8.toNat_inj.1
  have h1 : seq &&& 0x1f = seq % 32 := Nat.and_two_pow_sub_one_eq_mod _ 5
  have h2 : (grp &&& 0x7).toNat = grp.toNat % 8 := by
    rw [UInt8.toNat_and]; exact Nat.and_two_pow_sub_one_eq_mod _ 3
  rw [UInt8.toNat_add, UInt8.toNat_shiftLeft, h1, h2]
  unfold fpHeader
  have h5 : (5 : UInt8).toNat % 8 = 5 := rfl
  rw [h5, UInt8.toNat_ofNat', UInt8.toNat_ofNat', Nat.shiftLeft_eq]
  omega

/-- Writing texts one after the other until one write fails: the specification of a multi-frame
transmission.  Result: the failing write's result, or the sum of the counts and no error. -/
def writeAll (port : Port) : List (List Byte) → Nat → (Nat × Option Err) × Port
  | [], total => ((total, none), port)
  | t :: ts, total =>
    match port.write t with
    | ((n, some e), port') => ((n, some e), port')
    | ((n, none), port') => writeAll port' ts (total + n)

/-- One round of the loop of `Send` after the first. -/
theorem sendLoop_later (data : List Byte) (grp : Byte) (prio p0 p1 p2 dst : Byte) (n : Nat) :
    ∀ (fuel : Nat) (p : CanPort) (j : Nat) (tmp : List Byte) (q l : Byte) (body : List Byte) (total : Nat),
      data.length - 6 * j ≤ n → n < fuel → 1 ≤ j → tmp.length = 8 → body.length = 8 →
      (if p1 < 240 then dst else q) = p2 →
      sendLoop data grp fuel p (6 * j) j 6 tmp (prio :: p0 :: p1 :: q :: dst :: l :: body) total
        = .ok (some (
            let r := writeAll p.port ((laterFields 6 grp.toNat j (data.drop (6 * j))).map fun d =>
              bodyText (prio <<< 2 + (p0 &&& 1)) p1 p2 p.a d ++ [13]) total
            (r.1, { p with port := r.2 }))) := by
  induction n with
  | zero =>
    intro fuel p j tmp q l body total hn hf hj ht hb hq
    obtain ⟨fuel, rfl⟩ : ∃ f, fuel = f + 1 := ⟨fuel - 1, by omega⟩
    have hd : data.drop (6 * j) = [] := List.drop_of_length_le (by omega)
    rw [sendLoop, if_neg (by omega), hd, laterFields_nil]
    rfl
  | succ n ih =>
    intro fuel p j tmp q l body total hn hf hj ht hb hq
    obtain ⟨fuel, rfl⟩ : ∃ f, fuel = f + 1 := ⟨fuel - 1, by omega⟩
    by_cases hlt : 6 * j < data.length
    · have hne : data.drop (6 * j) ≠ [] := by
        intro e; have := congrArg List.length e; simp at this; omega
      rw [laterFields_cons 6 _ _ _ (by omega) hne, List.drop_drop]
      have h1 : ((6 * j == 1) : Bool) = false := by simp; omega
      have h0 : ((6 * j == 0) : Bool) = false := by simp; omega
      obtain ⟨chunk, hchunk⟩ : ∃ c, c = (data.drop (6 * j)).take 6 := ⟨_, rfl⟩
      have hcl : chunk.length = min 6 (data.length - 6 * j) := by
        rw [hchunk, List.length_take, List.length_drop]
      have hthis : (if 6 * j + 6 > data.length then 6 - (6 * j + 6 - data.length) else 6) = chunk.length := by
        split <;> omega
      have hsl : ((data.take (if 6 * j + 6 > data.length then data.length else 6 * j + 6)).drop (6 * j))
          = chunk := by
        rw [hchunk, List.drop_take]
        split
        · rw [List.take_of_length_le (by simp), List.take_of_length_le (by simp; omega)]
        · congr 1; omega
      obtain ⟨t0, tmp', rfl⟩ : ∃ a b, tmp = a :: b := by
        cases tmp with
        | nil => simp at ht
        | cons a b => exact ⟨a, b, rfl⟩
      have htl : tmp'.length = 7 := by simpa using ht
      have hc1 : copyInto (fpHeader grp.toNat j :: tmp') 1 chunk
          = fpHeader grp.toNat j :: (chunk ++ tmp'.drop chunk.length) := by
        rw [copyInto_eq _ _ _ (by simp [htl]; omega)]
        simp [Nat.add_comm 1]
      have hc2 : (fpHeader grp.toNat j :: (chunk ++ tmp'.drop chunk.length)).take (chunk.length + 1)
          = fpHeader grp.toNat j :: chunk := by
        simp
      have hc3 : copyInto (prio :: p0 :: p1 :: q :: dst :: l :: body) 6 (fpHeader grp.toNat j :: chunk)
          = prio :: p0 :: p1 :: q :: dst :: l :: ((fpHeader grp.toNat j :: chunk) ++ body.drop (chunk.length + 1)) := by
        rw [copyInto_eq _ _ _ (by simp [hb]; omega)]
        simp [Nat.add_comm 6]
      have hw := Write_text p prio p0 p1 q dst (UInt8.ofNat (chunk.length + 1)) (fpHeader grp.toNat j :: chunk)
        (body.drop (chunk.length + 1)) (by rw [UInt8.toNat_ofNat']; simp; omega) (by simp; omega)
      rw [hq] at hw
      rw [sendLoop, if_pos hlt]
      simp only [setAt, List.length_cons, Nat.zero_lt_succ, if_true, List.set, bind, Except.bind, sent_header,
        h1, h0, Bool.false_eq_true, if_false, hsl, hthis, hc1, hc2, hc3]
      rw [if_pos (by omega)]
      simp only [hw]
      cases hsc : p.port.script p.port.log.length with
      | mk cnt err =>
        cases err with
        | some e =>
          simp only [List.map_cons, writeAll, Port.write, hsc, ← hchunk]
          rfl
        | none =>
          simp only [List.map_cons, writeAll, Port.write, hsc, ← hchunk]
          have := ih fuel { p with port := { p.port with log := p.port.log ++
              [bodyText (prio <<< 2 + (p0 &&& 1)) p1 p2 p.a (fpHeader grp.toNat j :: chunk) ++ [13]] } }
            (j + 1) (fpHeader grp.toNat j :: (chunk ++ tmp'.drop chunk.length)) p2
            (UInt8.ofNat (chunk.length + 1)) ((fpHeader grp.toNat j :: chunk) ++ body.drop (chunk.length + 1))
            (total + cnt) (by omega) (by omega) (by omega)
            (by simp [htl]; omega) (by simp [hb]; omega)
            (by rw [← hq]; split <;> rfl)
          have e6 : 6 * (j + 1) = 6 * j + 6 := by omega
          rw [e6] at this
          exact this
    · have hd : data.drop (6 * j) = [] := List.drop_of_length_le (by omega)
      rw [sendLoop, if_neg hlt, hd, laterFields_nil]
      rfl

/-- The text (without carriage return) that a port with address `a` writes for the data field `d` of
the message `f`. -/
def fieldText (a : Byte) (f : RawMessage) (d : List Byte) : List Byte :=
  bodyText (f.priority <<< 2 + (UInt8.ofNat ((f.pgn &&& 0xf0000) >>> 16) &&& 1))
    (UInt8.ofNat ((f.pgn &&& 0xff00) >>> 8))
    (if UInt8.ofNat ((f.pgn &&& 0xff00) >>> 8) < 240 then f.destination else UInt8.ofNat f.pgn) a d

/-- `Send` of 9 to 223 bytes writes the fast-packet fields with 6 bytes in each later frame, one write
per frame, until one fails; it uses the package's group counter and advances it. -/
theorem Send_fast (p : CanPort) (f : RawMessage) (h9 : 9 ≤ f.data.vis.length)
    (h223 : f.data.vis.length ≤ 223) :
    Send p f = .ok (
      let r := writeAll p.port ((fastFields 6 p.group.toNat f.data.vis).map fun d =>
        fieldText p.a f d ++ [13]) 0
      (r.1, { p with port := r.2, group := p.group + 1 })) := by
  obtain ⟨data, hdata⟩ : ∃ d, d = f.data.vis := ⟨_, rfl⟩
  rw [← hdata] at h9 h223 ⊢
  obtain ⟨c, hc⟩ : ∃ c, c = data.take 6 := ⟨_, rfl⟩
  have hcl : c.length = 6 := by rw [hc, List.length_take]; omega
  have hw := Write_text { p with group := p.group + 1 } f.priority (UInt8.ofNat ((f.pgn &&& 0xf0000) >>> 16))
    (UInt8.ofNat ((f.pgn &&& 0xff00) >>> 8)) (UInt8.ofNat f.pgn) f.destination 8
    (fpHeader p.group.toNat 0 :: UInt8.ofNat data.length :: c) []
    (by simp [hcl]) (by simp [hcl])
  have hgrp : UInt8.ofNat (0 &&& 0x1f) + (p.group &&& 0x7) <<< 5 = fpHeader p.group.toNat 0 :=
    sent_header p.group 0
  have h1 : ¬ (data.length ≤ 8) := by omega
  have h2 : data.length > 8 ∧ data.length ≤ 223 := by omega
  have hin : ¬ (0 + 6 > data.length) := by omega
  have hcp : ∀ a b : Byte, copyInto [a, b, 0, 0, 0, 0, 0, 0] 2 c = a :: b :: c := by
    intro a b
    rw [copyInto_eq _ _ _ (by simp [hcl]), hcl]; simp
  have htk : ∀ a b : Byte, (a :: b :: c).take (6 + 2) = a :: b :: c := by
    intro a b; rw [List.take_of_length_le (by simp [hcl])]
  have hcp2 : ∀ x0 x1 x2 x3 x4 x5 a b : Byte,
      copyInto [x0, x1, x2, x3, x4, x5, 0, 0, 0, 0, 0, 0, 0, 0] 6 (a :: b :: c)
        = x0 :: x1 :: x2 :: x3 :: x4 :: x5 :: a :: b :: c := by
    intro x0 x1 x2 x3 x4 x5 a b
    rw [copyInto_eq _ _ _ (by simp [hcl])]; simp [hcl]
  simp only [Send, List.replicate, setAt, List.length_cons, List.length_nil, List.set, bind, Except.bind,
    ← hdata, h1, h2, if_true, if_false, and_self, Nat.zero_add, Nat.reduceAdd, Nat.reduceLT,
    Nat.zero_lt_succ]
  rw [sendLoop, if_pos (by omega)]
  have htk6 : (data.take 6).drop 0 = c := by rw [hc]; rfl
  simp only [setAt, List.length_cons, List.length_nil, Nat.zero_lt_succ, if_true, List.set, bind, Except.bind,
    hgrp, Nat.zero_add, Nat.reduceAdd, Nat.reduceLT, Nat.reduceBEq, Bool.false_eq_true, if_false]
  rw [if_neg (show ¬ (6 > data.length) by omega)]
  have hend : (if 6 > data.length then data.length else 6) = 6 := if_neg (by omega)
  simp only [hend, htk6, hcp, htk, hcp2, List.set]
  have h8 : UInt8.ofNat 8 = 8 := rfl
  rw [List.append_nil] at hw
  simp only [h8]
  rw [if_pos (by simp)]
  simp only [hw]
  have hfields : fastFields 6 p.group.toNat data
      = (fpHeader p.group.toNat 0 :: UInt8.ofNat data.length :: c)
        :: laterFields 6 p.group.toNat 1 (data.drop (6 * 1)) := by
    rw [hc]; rfl
  rw [hfields]
  cases hsc : p.port.script p.port.log.length with
  | mk cnt err =>
    cases err with
    | some e =>
      simp only [List.map_cons, writeAll, Port.write, hsc]
      rfl
    | none =>
      have hl := sendLoop_later data p.group f.priority (UInt8.ofNat ((f.pgn &&& 0xf0000) >>> 16))
        (UInt8.ofNat ((f.pgn &&& 0xff00) >>> 8))
        (if UInt8.ofNat ((f.pgn &&& 0xff00) >>> 8) < 240 then f.destination else UInt8.ofNat f.pgn)
        f.destination (data.length - 6) data.length
        { p with
          port := { p.port with log := p.port.log ++
            [fieldText p.a f (fpHeader p.group.toNat 0 :: UInt8.ofNat data.length :: c) ++ [13]] }
          group := p.group + 1 }
        1 (fpHeader p.group.toNat 0 :: UInt8.ofNat data.length :: c)
        (if UInt8.ofNat ((f.pgn &&& 0xff00) >>> 8) < 240 then f.destination else UInt8.ofNat f.pgn)
        8 (fpHeader p.group.toNat 0 :: UInt8.ofNat data.length :: c) cnt
        (by omega) (by omega) (by omega) (by simp [hcl]) (by simp [hcl]) (by split <;> rfl)
      simp only [List.map_cons, writeAll, Port.write, hsc, Nat.zero_add]
      simp only [fieldText, Nat.mul_one] at hl ⊢
      rw [hl]
      rfl

theorem writeAll_ok (port : Port) (ts : List (List Byte)) (total : Nat)
    (h : ∀ k, (port.script k).2 = none) :
    ∃ n, writeAll port ts total = ((n, none), { port with log := port.log ++ ts }) := by
  induction ts generalizing port total with
  | nil => exact ⟨total, by simp [writeAll]⟩
  | cons t ts ih =>
    have hk := h port.log.length
    cases hs : port.script port.log.length with
    | mk n err =>
      rw [hs] at hk
      simp only at hk
      subst hk
      obtain ⟨r, hr⟩ := ih { port with log := port.log ++ [t] } (total + n) h
      refine ⟨r, ?_⟩
      simp only [writeAll, Port.write, hs, hr, List.append_assoc, List.singleton_append]

/-- Whatever the port answers, the writes performed are an initial segment of the intended ones, and
stopping early means that the last performed write failed and its error is returned. -/
theorem writeAll_prefix (port : Port) (ts : List (List Byte)) (total : Nat) :
    ∃ k, k ≤ ts.length ∧ (writeAll port ts total).2.log = port.log ++ ts.take k ∧
      ((writeAll port ts total).1.2 = none ↔ ∀ i < ts.length, (port.script (port.log.length + i)).2 = none) ∧
      ((writeAll port ts total).1.2 = none → k = ts.length) := by
  induction ts generalizing port total with
  | nil => exact ⟨0, by simp, by simp [writeAll], by simp [writeAll], by simp⟩
  | cons t ts ih =>
    cases hs : port.script port.log.length with
    | mk n err =>
      cases err with
      | some e =>
        refine ⟨1, by simp, by simp [writeAll, Port.write, hs], ?_, ?_⟩
        · simp only [writeAll, Port.write, hs]
          constructor
          · intro h; cases h
          · intro h
            have := h 0 (by simp)
            rw [Nat.add_zero, hs] at this
            cases this
        · intro h; simp [writeAll, Port.write, hs] at h
      | none =>
        obtain ⟨k, h1, h2, h3, h4⟩ := ih { port with log := port.log ++ [t] } (total + n)
        refine ⟨k + 1, by simp; omega, ?_, ?_, ?_⟩
        · simp only [writeAll, Port.write, hs, h2]
          simp
        · simp only [writeAll, Port.write, hs, h3]
          constructor
          · intro h i hi
            cases i with
            | zero => rw [Nat.add_zero, hs]
            | succ i =>
              have := h i (by simpa using hi)
              simpa [Nat.add_assoc, Nat.add_comm 1] using this
          · intro h i hi
            have := h (i + 1) (by simp; omega)
            simpa [Nat.add_assoc, Nat.add_comm 1] using this
        · intro h
          simp only [writeAll, Port.write, hs] at h
          simp [h4 h]

/-- A written field, with a timestamp appended, is read by another station as that field under the
message's header. -/
theorem fieldText_parsed (a : Byte) (f : RawMessage) (d ts sp : List Byte) (hd : d.length ≤ 8)
    (hts : ts.length = 4) :
    parsed ⟨fieldText a f d ++ ts, sp⟩ = .frame (withField (asReceived a f.view) d) := by
  refine (C15_accepts _ _ _).2 ⟨_, _, bodyText_lawicel _ _ _ a d ts hd hts, ?_⟩
  rw [sent_decoded]
  rfl

theorem laterFields_sizes (n g : Nat) (hn : 0 < n) (xs : List Byte) :
    ∀ k, ∀ d ∈ laterFields n g k xs, 2 ≤ d.length ∧ d.length ≤ n + 1 := by
  induction hN : xs.length using Nat.strongRecOn generalizing xs with
  | _ N ih =>
    intro k d hd
    by_cases h : xs = []
    · subst h; rw [laterFields_nil] at hd; cases hd
    · have hpos : 0 < xs.length := List.length_pos_iff.2 h
      rw [laterFields_cons n g k xs hn h] at hd
      rcases List.mem_cons.1 hd with rfl | hd
      · simp only [List.length_cons, List.length_take]; omega
      · exact ih (xs.drop n).length (by rw [List.length_drop]; omega) (xs.drop n) rfl _ d hd

theorem fastFields_sizes (n g : Nat) (hn : 0 < n) (hn7 : n ≤ 7) (xs : List Byte) :
    ∀ d ∈ fastFields n g xs, 2 ≤ d.length ∧ d.length ≤ 8 := by
  intro d hd
  rcases List.mem_cons.1 hd with rfl | hd
  · simp only [List.length_cons, List.length_take]; omega
  · have := laterFields_sizes n g hn _ _ d hd; omega

theorem texts_parse (a : Byte) (f : RawMessage) (fields : List (List Byte))
    (hf : ∀ d ∈ fields, d.length ≤ 8) : ∀ (stamp spare : Nat → List Byte), (∀ i, (stamp i).length = 4) →
    Parses ((fields.map (fieldText a f)).mapIdx fun i b => ⟨b ++ stamp i, spare i⟩)
      (fields.map (withField (asReceived a f.view))) := by
  induction fields with
  | nil => intro _ _ _; trivial
  | cons d fields ih =>
    intro stamp spare hs
    rw [List.map_cons, List.mapIdx_cons, List.map_cons]
    exact ⟨fieldText_parsed a f d _ _ (hf d (by simp)) (hs 0),
      ih (fun d hd => hf d (by simp [hd])) (fun i => stamp (i + 1)) (fun i => spare (i + 1))
        (fun i => hs (i + 1))⟩

theorem padLast_nil (l : List (List Byte)) : padLast [] l = l := by
  induction l with
  | nil => rfl
  | cons a l ih =>
    cases l with
    | nil => simp [padLast]
    | cons b l => simp only [padLast]; rw [ih]

/-- C20: `Send` of 9 to 192 bytes, all writes succeeding, writes texts `bodies` (each followed by a
carriage return) such that another argo station receiving them in order — with any timestamps, from
any prior state, the PGN being registered there — delivers exactly one message, at the last line: the
payload, its size, the sender's address, and the sent header. -/
theorem C20_roundtrip (p : CanPort) (f : RawMessage) (h9 : 9 ≤ f.data.vis.length)
    (h192 : f.data.vis.length ≤ 192) (hok : ∀ k, (p.port.script k).2 = none) :
    ∃ (bodies : List (List Byte)) (r : _) (p' : _), Send p f = .ok (r, p') ∧ r.2 = none ∧
      p'.port.log = p.port.log ++ bodies.map (· ++ [13]) ∧
      ∀ (fp : List Nat) (m : Partials) (stamp spare : Nat → List Byte), (∀ i, (stamp i).length = 4) →
        isFastPacket fp (asReceived p.a f.view).pgn = true →
        ∃ m', receive fp m (bodies.mapIdx fun i b => ⟨b ++ stamp i, spare i⟩)
          = .ok (List.replicate (bodies.length - 1) none ++
              [some { asReceived p.a f.view with
                      length := UInt8.ofNat f.data.vis.length, data := f.data.vis }], m') := by
  obtain ⟨n, hw⟩ := writeAll_ok p.port ((fastFields 6 p.group.toNat f.data.vis).map fun d =>
        fieldText p.a f d ++ [13]) 0 hok
  refine ⟨(fastFields 6 p.group.toNat f.data.vis).map (fieldText p.a f), _, _,
    Send_fast p f h9 (by omega), by rw [hw], by simp [hw, Function.comp_def], ?_⟩
  intro fp m stamp spare hs hfast
  have hk : (fastFields 6 p.group.toNat f.data.vis).length ≤ 32 := by
    unfold fastFields
    rw [List.length_cons, laterFields_length _ _ _ _ (by omega), List.length_drop]
    omega
  have hp := texts_parse p.a f (fastFields 6 p.group.toNat f.data.vis)
    (fun d hd => (fastFields_sizes 6 _ (by omega) (by omega) _ d hd).2) stamp spare hs
  have h := fast_received fp m (asReceived p.a f.view) 6 p.group.toNat f.data.vis [] _ (by omega)
    (by omega) hk hfast (by rw [padLast_nil]; exact hp)
  rw [List.length_mapIdx, List.append_nil] at h
  exact ⟨_, h⟩

/-- A 20-byte message. -/
def sampleLong : RawMessage :=
  { priority := 3, pgn := 129029, source := 0, destination := 255, length := 20
    data := ⟨(List.range 20).map UInt8.ofNat, []⟩ }

example : 9 ≤ sampleLong.data.vis.length ∧ sampleLong.data.vis.length ≤ 192 ∧
    (∀ k, (samplePort.port.script k).2 = none) ∧
    isFastPacket [129029] (asReceived samplePort.a sampleLong.view).pgn = true :=
  ⟨by decide, by decide, fun _ => rfl, by decide⟩

/-! ### Beyond 192 bytes -/

theorem frame_bounded (fp : List Nat) (m : Partials) (l : Slice) (h : MsgView) (g k : Nat)
    (chunk : List Byte) (hl : parsed l = .frame (withField h (fpHeader g k :: chunk)))
    (hfast : isFastPacket fp h.pgn = true) (h1 : 1 ≤ chunk.length) (h6 : chunk.length ≤ 6)
    (hb : k % 32 ≠ 0 → ∀ part, m (slot (g % 4) h.pgn h.source) = some part →
      part.data.length ≤ 6 * (k % 32)) :
    ∃ o x, frameReceived fp m l = .ok (o, m.set (slot (g % 4) h.pgn h.source) x) ∧
      (∀ v, o = some v → v.out.data.length ≤ 192) ∧
      ((k + 1) % 32 ≠ 0 → ∀ part, x = some part → part.data.length ≤ 6 * ((k + 1) % 32)) := by
  obtain ⟨fr, hpf, hout⟩ := parsed_frame hl
  have hpgn : h.pgn < 2 ^ 18 := by
    have := parsed_pgn hl
    exact this
  have e1 : fr.pgn = h.pgn := congrArg MsgView.pgn hout
  have e2 : fr.source = h.source := congrArg MsgView.source hout
  have e3 : fr.data = fpHeader g k :: chunk := congrArg MsgView.data hout
  have hstep := reassemble_core fp m fr _ _ (by rw [e1]; exact hfast) e3 (by omega)
  rw [header_grp, e1, e2] at hstep
  rw [frameReceived_parsed hpf]
  simp only [core, e3, header_seq] at hstep
  by_cases h0 : k % 32 = 0
  · rw [if_pos h0] at hstep
    cases chunk with
    | nil => simp at h1
    | cons d1 data =>
      simp only [List.length_cons] at h6
      simp only [] at hstep
      split at hstep
      · refine ⟨_, _, hstep, ?_, ?_⟩
        · intro v hv; injection hv with hv; subst hv
          show data.length ≤ 192
          omega
        · intro _ p hp; cases hp
      · refine ⟨_, _, hstep, ?_, ?_⟩
        · intro v hv; cases hv
        · intro _ p hp; injection hp with hp; subst hp
          show data.length ≤ _
          omega
  · rw [if_neg h0] at hstep
    cases hm : m (slot (g % 4) h.pgn h.source) with
    | none =>
      rw [hm] at hstep
      refine ⟨_, _, hstep, ?_, ?_⟩
      · intro v hv; injection hv with hv; subst hv
        show (fpHeader g k :: chunk).length ≤ 192
        simp only [List.length_cons]; omega
      · intro _ p hp; cases hp
    | some part =>
      rw [hm] at hstep
      have hpb := hb h0 part hm
      simp only [] at hstep
      split at hstep
      · split at hstep
        · refine ⟨_, _, hstep, ?_, ?_⟩
          · intro v hv; injection hv with hv; subst hv
            show (part.data ++ chunk).length ≤ 192
            rw [List.length_append]; omega
          · intro _ p hp; cases hp
        · refine ⟨_, _, hstep, ?_, ?_⟩
          · intro v hv; cases hv
          · intro _ p hp; injection hp with hp; subst hp
            show (part.data ++ chunk).length ≤ _
            rw [List.length_append]; omega
      · refine ⟨_, _, hstep, ?_, ?_⟩
        · intro v hv; injection hv with hv; subst hv
          show (fpHeader g k :: chunk).length ≤ 192
          simp only [List.length_cons]; omega
        · intro _ p hp; injection hp with hp; subst hp; omega

theorem later_bounded (fp : List Nat) (h : MsgView) (g : Nat) (hfast : isFastPacket fp h.pgn = true)
    (xs : List Byte) : ∀ (k : Nat) (m : Partials) (ls : List Slice),
    (k % 32 ≠ 0 → ∀ part, m (slot (g % 4) h.pgn h.source) = some part →
      part.data.length ≤ 6 * (k % 32)) →
    Parses ls ((laterFields 6 g k xs).map (withField h)) →
    ∃ outs m', receive fp m ls = .ok (outs, m') ∧ ∀ o, some o ∈ outs → o.data.length ≤ 192 := by
  induction hN : xs.length using Nat.strongRecOn generalizing xs with
  | _ N ih =>
    intro k m ls hb hp
    by_cases hx : xs = []
    · subst hx
      rw [laterFields_nil] at hp
      match ls, hp with
      | [], _ => exact ⟨[], m, rfl, by simp⟩
    · have hpos : 0 < xs.length := List.length_pos_iff.2 hx
      rw [laterFields_cons 6 g k xs (by omega) hx] at hp
      match ls, hp with
      | l :: ls, hp =>
        obtain ⟨o, x, f1, f2, f3⟩ := frame_bounded fp m l h g k (xs.take 6) hp.1 hfast
          (by rw [List.length_take]; omega) (by rw [List.length_take]; omega) hb
        obtain ⟨outs, m', i1, i2⟩ := ih (xs.drop 6).length (by rw [List.length_drop]; omega) (xs.drop 6) rfl
          (k + 1) (m.set (slot (g % 4) h.pgn h.source) x) ls
          (by intro hk part hpart; simp [Partials.set] at hpart; exact f3 hk part hpart) hp.2
        refine ⟨o.map CanFrame.out :: outs, m', ?_, ?_⟩
        · simp only [receive, f1, bind, Except.bind, i1, pure, Except.pure]
        · intro v hv
          rcases List.mem_cons.1 hv with hv | hv
          · cases o with
            | none => cases hv
            | some y => injection hv with hv; subst hv; exact f2 y rfl
          · exact i2 v hv

/-- C20, the limit: whatever `Send` transmits as a fast packet, and whatever the receiver's prior
state, no message of more than 192 bytes is ever delivered — so for every payload of 193 to 223 bytes
(which `Send` accepts and reports as sent) the payload is lost: no delivered message has it as prefix. -/
theorem C20_false_above_192 (p : CanPort) (f : RawMessage) (h193 : 193 ≤ f.data.vis.length)
    (h223 : f.data.vis.length ≤ 223) (hok : ∀ k, (p.port.script k).2 = none) :
    ∃ (bodies : List (List Byte)) (r : _) (p' : _), Send p f = .ok (r, p') ∧ r.2 = none ∧
      p'.port.log = p.port.log ++ bodies.map (· ++ [13]) ∧
      ∀ (fp : List Nat) (m : Partials) (stamp spare : Nat → List Byte), (∀ i, (stamp i).length = 4) →
        isFastPacket fp (asReceived p.a f.view).pgn = true →
        ∃ outs m', receive fp m (bodies.mapIdx fun i b => ⟨b ++ stamp i, spare i⟩) = .ok (outs, m') ∧
          ∀ o, some o ∈ outs → ¬ f.data.vis <+: o.data := by
  obtain ⟨n, hw⟩ := writeAll_ok p.port ((fastFields 6 p.group.toNat f.data.vis).map fun d =>
        fieldText p.a f d ++ [13]) 0 hok
  refine ⟨(fastFields 6 p.group.toNat f.data.vis).map (fieldText p.a f), _, _,
    Send_fast p f (by omega) (by omega), by rw [hw], by simp [hw, Function.comp_def], ?_⟩
  intro fp m stamp spare hs hfast
  have hp := texts_parse p.a f (fastFields 6 p.group.toNat f.data.vis)
    (fun d hd => (fastFields_sizes 6 _ (by omega) (by omega) _ d hd).2) stamp spare hs
  unfold fastFields at hp ⊢
  rw [List.map_cons, List.mapIdx_cons, List.map_cons] at hp
  have hp2 := hp.2
  have hp1 := hp.1
  rw [List.map_cons, List.mapIdx_cons]
  obtain ⟨fr, hpf, hout⟩ := parsed_frame hp1
  have hpgn : (asReceived p.a f.view).pgn < 2 ^ 18 := by
    have := parsed_pgn hp1
    exact this
  have e1 : fr.pgn = (asReceived p.a f.view).pgn := congrArg MsgView.pgn hout
  have e2 : fr.source = (asReceived p.a f.view).source := congrArg MsgView.source hout
  have e3 : fr.data = _ := congrArg MsgView.data hout
  have hstep := reassemble_core fp m fr _ _ (by rw [e1]; exact hfast) e3 (by rw [e1]; exact hpgn)
  have hL : (UInt8.ofNat f.data.vis.length).toNat = f.data.vis.length := by
    rw [UInt8.toNat_ofNat']; omega
  have h60 : (f.data.vis.take 6).length = 6 := by rw [List.length_take]; omega
  rw [header_grp, e1, e2] at hstep
  simp only [core, e3, header_seq, withField, Nat.zero_mod, if_true, hL] at hstep
  rw [if_neg (by omega)] at hstep
  simp only [bind, Except.bind] at hstep
  obtain ⟨x, hx, hxl⟩ : ∃ x : CanFrame, reassemble fp m fr = .ok (none,
      m.set (slot (p.group.toNat % 4) (asReceived p.a f.view).pgn (asReceived p.a f.view).source) (some x)) ∧
      x.data.length = 6 := ⟨_, hstep, h60⟩
  obtain ⟨outs, m', i1, i2⟩ := later_bounded fp (asReceived p.a f.view) p.group.toNat hfast
    (f.data.vis.drop 6) 1
    (m.set (slot (p.group.toNat % 4) (asReceived p.a f.view).pgn (asReceived p.a f.view).source) (some x)) _ (by
      intro _ part hpart
      simp only [Partials.set, if_true] at hpart
      injection hpart with hpart
      rw [← hpart, hxl]; omega) hp2
  refine ⟨none :: outs, m', ?_, ?_⟩
  · simp only [receive, frameReceived_parsed hpf, hx, bind, Except.bind, pure, Except.pure]
    rw [i1]; rfl
  · intro o ho hpre
    rcases List.mem_cons.1 ho with ho | ho
    · cases ho
    · have := i2 o ho
      have := hpre.length_le
      omega

/-! ### C21: framing -/

/-- What `Send` puts on the bus for a fast packet, as frames another station reads. -/
theorem Send_frames (p : CanPort) (f : RawMessage) (h9 : 9 ≤ f.data.vis.length)
    (h223 : f.data.vis.length ≤ 223) (hok : ∀ k, (p.port.script k).2 = none) :
    ∃ (bodies : List (List Byte)) (r : _) (p' : _), Send p f = .ok (r, p') ∧
      p'.port.log = p.port.log ++ bodies.map (· ++ [13]) ∧
      ∀ (stamp spare : Nat → List Byte), (∀ i, (stamp i).length = 4) →
        Parses (bodies.mapIdx fun i b => ⟨b ++ stamp i, spare i⟩)
          ((fastFields 6 p.group.toNat f.data.vis).map (withField (asReceived p.a f.view))) := by
  obtain ⟨n, hw⟩ := writeAll_ok p.port ((fastFields 6 p.group.toNat f.data.vis).map fun d =>
        fieldText p.a f d ++ [13]) 0 hok
  exact ⟨(fastFields 6 p.group.toNat f.data.vis).map (fieldText p.a f), _, _,
    Send_fast p f h9 h223, by simp [hw, Function.comp_def], fun stamp spare hs =>
    texts_parse p.a f _ (fun d hd => (fastFields_sizes 6 _ (by omega) (by omega) _ d hd).2) stamp spare hs⟩

theorem Parses.unique {ls : List Slice} {a b : List MsgView} (h1 : Parses ls a) (h2 : Parses ls b) :
    a = b := by
  induction ls generalizing a b with
  | nil =>
    match a, b, h1, h2 with
    | [], [], _, _ => rfl
  | cons l ls ih =>
    match a, b, h1, h2 with
    | x :: a, y :: b, h1, h2 =>
      have : Parsed.frame x = Parsed.frame y := h1.1.symm.trans h2.1
      injection this with this
      rw [this, ih h1.2 h2.2]

/-- C21, where it holds: payloads of 9 to 12 bytes are framed as NMEA 2000 prescribes. -/
theorem C21_partial (p : CanPort) (f : RawMessage) (h9 : 9 ≤ f.data.vis.length)
    (h12 : f.data.vis.length ≤ 12) (hok : ∀ k, (p.port.script k).2 = none) :
    ∃ (bodies : List (List Byte)) (r : _) (p' : _), Send p f = .ok (r, p') ∧
      p'.port.log = p.port.log ++ bodies.map (· ++ [13]) ∧
      ∀ (stamp spare : Nat → List Byte), (∀ i, (stamp i).length = 4) →
        Parses (bodies.mapIdx fun i b => ⟨b ++ stamp i, spare i⟩)
          ((fastFields 7 p.group.toNat f.data.vis).map (withField (asReceived p.a f.view))) := by
  have e : fastFields 6 p.group.toNat f.data.vis = fastFields 7 p.group.toNat f.data.vis := by
    unfold fastFields
    have hne : f.data.vis.drop 6 ≠ [] := by
      intro e; have := congrArg List.length e; simp at this; omega
    rw [laterFields_cons 6 _ _ _ (by omega) hne, laterFields_cons 7 _ _ _ (by omega) hne,
      List.take_of_length_le (l := f.data.vis.drop 6) (i := 6) (by simp; omega),
      List.take_of_length_le (l := f.data.vis.drop 6) (i := 7) (by simp; omega),
      List.drop_of_length_le (l := f.data.vis.drop 6) (i := 6) (by simp; omega),
      List.drop_of_length_le (l := f.data.vis.drop 6) (i := 7) (by simp; omega),
      laterFields_nil, laterFields_nil]
  rw [← e]
  exact Send_frames p f h9 (by omega) hok

/-- C21 is false for every payload over 12 bytes: whatever `Send` writes, its frames are not the
frames NMEA 2000 prescribes for the payload, for any group number. -/
theorem C21_false (p : CanPort) (f : RawMessage) (h13 : 13 ≤ f.data.vis.length)
    (h223 : f.data.vis.length ≤ 223) (hok : ∀ k, (p.port.script k).2 = none) :
    ∃ (bodies : List (List Byte)) (r : _) (p' : _), Send p f = .ok (r, p') ∧
      p'.port.log = p.port.log ++ bodies.map (· ++ [13]) ∧
      ∀ (stamp spare : Nat → List Byte), (∀ i, (stamp i).length = 4) → ∀ g hdr,
        ¬ Parses (bodies.mapIdx fun i b => ⟨b ++ stamp i, spare i⟩)
          ((fastFields 7 g f.data.vis).map (withField hdr)) := by
  obtain ⟨bodies, r, p', h1, h2, h3⟩ := Send_frames p f (by omega) h223 hok
  refine ⟨bodies, r, p', h1, h2, ?_⟩
  intro stamp spare hs g hdr hp
  have := (h3 stamp spare hs).unique hp
  unfold fastFields at this
  have hne : f.data.vis.drop 6 ≠ [] := by
    intro e; have := congrArg List.length e; simp at this; omega
  rw [laterFields_cons 6 _ _ _ (by omega) hne, laterFields_cons 7 _ _ _ (by omega) hne] at this
  simp only [List.map_cons, List.cons.injEq] at this
  have := congrArg (fun v => v.data.length) this.2.1
  simp only [withField, List.length_cons, List.length_take, List.length_drop] at this
  omega

end Argo.Canusb
