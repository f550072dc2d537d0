import Verif.Actisense.Props

set_option autoImplicit false

/-!
# Sharper forms of C02, C09 and C10

Found by editing the model: C02 spoke of the framing of the specification only, and C09 and C10 of the
model's own `writeBytes`.
-/

namespace Argo.Actisense

open Argo.NgtSpec

/-! ### C02: the framing of `Read` itself -/

/-- The contents that `Read` hands to `messageReceived` (actisense.go:107) while it is called again and
again on a byte stream: what is in the buffer whenever a DLE is followed by ETX. -/
def handed (g : Nat → Nat) : RState → List Byte → List (List Byte)
  | _, [] => []
  | s, b :: bs =>
    (if s.state = .MsgEscape ∧ b = ETX then [s.buf.vis] else []) ++
      match byteStep g { s with rx := b } b with
      | .loop s' => handed g s' bs
      | .ret _ => handed g RState.init bs
      | .crash _ => []

/-- Read delimits exactly the frames of the protocol, up to a frame that crashes it, if any. -/
theorem handed_prefix (g : Nat → Nat) (s : RState) (bs : List Byte) :
    handed g s bs <+: deframe (phase s.state) s.buf.vis bs ∧
      (handed g s bs = [] → deframe (phase s.state) s.buf.vis bs = []) := by
  induction bs generalizing s with
  | nil => obtain ⟨buf, rx, st⟩ := s; cases st <;> simp [handed, deframe, phase]
  | cons b bs ih =>
    obtain ⟨buf, rx, st⟩ := s
    cases st with
    | MsgStart =>
      by_cases h : b = 0x10
      · subst h
        have := ih ⟨buf, 0x10, .MsgEscape⟩
        simpa [handed, byteStep, DLE, phase, deframe] using this
      · have := ih ⟨buf, b, .MsgStart⟩
        simpa [handed, byteStep, DLE, h, phase, deframe] using this
    | MsgMessage =>
      by_cases h : b = 0x10
      · subst h
        have := ih ⟨buf, 0x10, .MsgEscape⟩
        simpa [handed, byteStep, DLE, phase, deframe] using this
      · have := ih ⟨buf.push g b, b, .MsgMessage⟩
        simpa [handed, byteStep, DLE, h, phase, deframe] using this
    | MsgEscape =>
      by_cases h3 : b = 0x03
      · subst h3
        have i1 := ih RState.init
        have i2 := ih ⟨Slice.nil, ETX, .MsgStart⟩
        simp only [handed, phase, deframe, ETX, if_true, byteStep, beq_self_eq_true, and_self,
          List.cons_append, List.nil_append, reduceCtorEq, false_implies, and_true]
        rw [List.cons_prefix_cons]
        refine ⟨rfl, ?_⟩
        cases messageReceived buf with
        | error e => exact List.nil_prefix
        | ok r =>
          cases r with
          | ok m => exact i1.1
          | error e => exact i2.1
      · by_cases h2 : b = 0x02
        · subst h2
          have := ih ⟨buf, 0x02, .MsgMessage⟩
          simpa [handed, byteStep, DLE, ETX, STX, phase, deframe] using this
        · by_cases h1 : b = 0x10
          · subst h1
            have := ih ⟨buf.push g 0x10, 0x10, .MsgMessage⟩
            simpa [handed, byteStep, DLE, ETX, STX, phase, deframe] using this
          · have := ih ⟨Slice.nil, b, .MsgStart⟩
            simpa [handed, byteStep, DLE, ETX, STX, h1, h2, h3, phase, deframe] using this

/-- **C02** (with the framing of Read): what `write` sends, fed to `Read`, is delimited as exactly one
frame, with the original command, length, payload and checksum, whenever neither the length byte nor the
checksum is 0x10. -/
theorem C02_read_partial (g : Nat → Nat) (command : Byte) (payload : List Byte) (hc : command ≠ 0x10)
    (hl : UInt8.ofNat payload.length ≠ 0x10)
    (hs : -(command + total payload + UInt8.ofNat payload.length) ≠ 0x10) :
    handed g RState.init (writeBytes command payload) =
      [[command, UInt8.ofNat payload.length] ++ payload ++
        [-(command + total payload + UInt8.ofNat payload.length)]] := by
  have h := (C02_roundtrip_iff command payload hc).2 ⟨hl, hs⟩
  have hp := handed_prefix g RState.init (writeBytes command payload)
  change _ <+: frames _ ∧ (_ → frames _ = []) at hp
  rw [h] at hp
  obtain ⟨⟨t, ht⟩, hn⟩ := hp
  cases hh : handed g RState.init (writeBytes command payload) with
  | nil => exact absurd (hn hh) (by simp)
  | cons a as =>
    rw [hh] at ht
    simp only [List.cons_append, List.cons.injEq, List.append_eq_nil_iff] at ht
    rw [ht.1, ht.2.1]
    simp

/-- **C02** (with the framing of Read) is false without the condition: a 16-byte payload is not delimited
as sent. -/
theorem C02_read_false :
    handed (fun _ => 0) RState.init (writeBytes 0x94 (List.replicate 16 0)) ≠
      [[0x94, 16] ++ List.replicate 16 0 ++ [-(0x94 + 16)]] := by decide

-- non-vacuity
example : handed (fun _ => 7) RState.init (writeBytes 0x94 [1, 2, 0x10, 3]) =
    [[0x94, 4, 1, 2, 0x10, 3, 0x52]] := by decide

/-! ### C09: in terms of the envelope -/

/-- The four bytes of a number, least significant first (two's complement for negative numbers). -/
def le4 (i : Int) : List Byte :=
  [UInt8.ofNat (i % 256).toNat, UInt8.ofNat (i / 256 % 256).toNat, UInt8.ofNat (i / 65536 % 256).toNat,
    UInt8.ofNat (i / 16777216 % 256).toNat]

theorem intToBytes_le4 : intToBytes = le4 := by
  funext i
  simp only [intToBytes, le4, byteOfInt, Int.shiftRight_eq_div_pow]
  rfl

/-- **C09** (on the wire): every command method that writes emits exactly one envelope, whose command byte
is 0xA1 (0x01 for Reboot), whose payload is the documented opcode followed by the arguments in
little-endian order and whose bytes sum to zero. -/
theorem C09_envelope (p : Port) (c : Cmd) (op : Byte) (h : opcode c = some op) :
    ∃ crc : Byte,
      let command : Byte := if c = .Reboot then 0x01 else 0xA1
      let payload := op :: arguments le4 c
      (c.run p).2.log = p.log ++ [envelope command (UInt8.ofNat payload.length) crc payload] ∧
      total ([command, UInt8.ofNat payload.length] ++ payload ++ [crc]) = 0 := by
  refine ⟨-((if c = .Reboot then 0x01 else 0xA1) + total (op :: arguments le4 c) +
    UInt8.ofNat (op :: arguments le4 c).length), ?_, ?_⟩
  · simp only [C09_encoding p c op h, writeBytes_envelope, intToBytes_le4]
  · simp only [total_append, total]; grind

/-- **C09** (the two unimplemented methods): exactly SetRxPGNEx and SetTxPGNEx write nothing. -/
theorem C09_silent (p : Port) (c : Cmd) (h : opcode c = none) :
    (c.run p).2.log = p.log ∧ (c.run p).1 = (-1, none) ∧
      ∃ a b m, c = .SetRxPGNEx a b m ∨ c = .SetTxPGNEx a b m := by
  cases c <;> simp [opcode] at h
  · exact ⟨rfl, rfl, _, _, _, Or.inl rfl⟩
  · exact ⟨rfl, rfl, _, _, _, Or.inr rfl⟩

/-- **C09** (results): the result of a command that writes is that of the port. -/
theorem C09_result (p : Port) (c : Cmd) (op : Byte) (h : opcode c = some op) :
    (c.run p).1 = (((p.script p.log.length).1 : Int), (p.script p.log.length).2) := by
  cases c <;> simp [opcode] at h <;> rfl

-- non-vacuity
example : arguments le4 (.SetRxPGN 127250 1) = [0x12, 0xF1, 0x01, 0x00, 0x01] := by decide

/-! ### C10: the bytes -/

/-- **C10** (on the wire): the bytes OpenChannel writes to a port whose writes succeed; on the first write
error it stops and returns that error. -/
theorem C10_bytes (p : Port) :
    let f1 : List Byte := [0x10, 0x02, 0xA1, 0x03, 0x11, 0x02, 0x00, 0x49, 0x10, 0x03]
    let f2 : List Byte := [0x10, 0x02, 0xA1, 0x04, 0x13, 0x00, 0x00, 0x00, 0x48, 0x10, 0x03]
    match (p.script p.log.length).2, (p.script (p.log.length + 1)).2 with
    | some e, _ => (OpenChannel p).1 = (false, some e) ∧ (OpenChannel p).2.log = p.log ++ [f1]
    | none, some e => (OpenChannel p).1 = (false, some e) ∧ (OpenChannel p).2.log = p.log ++ [f1, f2]
    | none, none => (OpenChannel p).1 = (true, none) ∧ (OpenChannel p).2.log = p.log ++ [f1, f2] := by
  have h := C10_open p
  have h1 : writeBytes 0xA1 [0x11, 2, 0] = [0x10, 0x02, 0xA1, 0x03, 0x11, 0x02, 0x00, 0x49, 0x10, 0x03] := by
    decide
  have h2 : writeBytes 0xA1 [0x13, 0, 0, 0] =
      [0x10, 0x02, 0xA1, 0x04, 0x13, 0x00, 0x00, 0x00, 0x48, 0x10, 0x03] := by decide
  simp only [h1, h2] at h
  exact h

end Argo.Actisense
