import Verif.Actisense.Lemmas

set_option autoImplicit false

/-!
# Properties of package `actisense` (C01–C12)

Statements use the protocol vocabulary of `Verif.Actisense.Spec`.
-/

namespace Argo.Actisense
open NgtSpec

/-- What the caller of `Read` sees in an observation (buffer capacities hidden). -/
def Obs.seen : Obs → Seen
  | .msg m => .msg m.view
  | .ioErr => .ioErr
  | .crash _ => .crash

/-- Everything a caller that keeps calling `Read` sees when the port delivers `evs`. -/
def reads (g : Nat → Nat) (evs : List Ev) : List Seen :=
  (session g RState.init evs).1.map Obs.seen

/-- The port delivers these bytes one by one. -/
def stream (bs : List Byte) : List Ev := bs.map Ev.byte

/-! ## C01 transmit envelope -/

/-- The checksum byte of an envelope. -/
theorem writeBytes_envelope (command : Byte) (payload : List Byte) :
    writeBytes command payload =
      envelope command (UInt8.ofNat payload.length)
        (-(command + total payload + UInt8.ofNat payload.length)) payload := by
  simp only [writeBytes, writeStep_foldl, envelope, ofNat_256_sub, DLE, STX, ETX]
  simp

/-- C01: `Write` hands the port exactly one buffer, the documented envelope of command 0x94 with
the payload's length modulo 256 and a checksum that makes all unescaped bytes sum to zero, and
returns the port's own result. -/
theorem C01_Write (p : Port) (payload : List Byte) :
    ∃ crc : Byte,
      (Write p payload).2.log
        = p.log ++ [envelope 0x94 (UInt8.ofNat payload.length) crc payload]
      ∧ total ([0x94, UInt8.ofNat payload.length] ++ payload ++ [crc]) = 0
      ∧ (Write p payload).1 = p.script p.log.length := by
  refine ⟨-(0x94 + total payload + UInt8.ofNat payload.length), ?_, ?_, rfl⟩
  · simp only [Write, write, Port.write, writeBytes_envelope]; rfl
  · simp only [total_append, total]; grind

/-- C01 for the command methods: each one that writes, writes exactly one such envelope. -/
theorem C01_commands (p : Port) (c : Cmd) :
    ((c.run p).2.log = p.log ∧ (c.run p).1 = (-1, none)) ∨
    ∃ command payload crc,
      (c.run p).2.log = p.log ++ [envelope command (UInt8.ofNat payload.length) crc payload]
      ∧ total ([command, UInt8.ofNat payload.length] ++ payload ++ [crc]) = 0
      ∧ (command = 0xA1 ∨ c = .Reboot) := by
  have henv : ∀ cmd pl, (write p cmd pl).2.log = p.log ++ [envelope cmd (UInt8.ofNat pl.length)
        (-(cmd + total pl + UInt8.ofNat pl.length)) pl] := by
    intro cmd pl; simp only [write, Port.write, writeBytes_envelope]
  have htot : ∀ (cmd : Byte) (pl : List Byte), total ([cmd, UInt8.ofNat pl.length] ++ pl ++
      [-(cmd + total pl + UInt8.ofNat pl.length)]) = 0 := by
    intro cmd pl; simp only [total_append, total]; grind
  by_cases hr : c = .Reboot
  · subst hr; right; exact ⟨_, _, _, henv 1 [0x11], htot _ _, Or.inr rfl⟩
  · cases h : c.args with
    | none => left; simp [Cmd.run, h]
    | some a =>
      obtain ⟨cmd, pl⟩ := a
      right
      refine ⟨cmd, pl, _, ?_, htot cmd pl, Or.inl ?_⟩
      · simp only [Cmd.run, h]; exact henv cmd pl
      · cases c <;> simp_all [Cmd.args, ACmdSend]

/-- Escaping loses nothing. -/
theorem escape_injective {a b : List Byte} (h : escape a = escape b) : a = b := by
  induction a generalizing b with
  | nil =>
    cases b with
    | nil => rfl
    | cons y b => rw [escape_cons] at h; split at h <;> simp [escape_nil] at h
  | cons x a ih =>
    cases b with
    | nil => rw [escape_cons] at h; split at h <;> simp [escape_nil] at h
    | cons y b =>
      rw [escape_cons, escape_cons] at h
      split at h <;> split at h <;> simp at h
      · rename_i h1 h2; rw [h1, h2, ih h]
      · rename_i h1 h2; exact absurd h.1.symm h2
      · rename_i h1 h2; exact absurd h.1 h1
      · rw [h.1, ih h.2]

/-- C01: different command/payload pairs are never sent as the same bytes. -/
theorem C01_injective (c c' : Byte) (a a' : List Byte) (h : writeBytes c a = writeBytes c' a') :
    c = c' ∧ a = a' := by
  simp only [writeBytes_envelope, envelope] at h
  have h1 : c = c' := by simp at h; exact h.1
  refine ⟨h1, ?_⟩
  have h2 : escape a ++ [-(c + total a + UInt8.ofNat a.length), 0x10, 0x03]
      = escape a' ++ [-(c' + total a' + UInt8.ofNat a'.length), 0x10, 0x03] := by
    simp at h; exact h.2.2
  exact escape_injective (List.append_inj_left' h2 rfl)

example : ((Write ⟨[], fun _ => (0, none)⟩ [0x01, 0x10, 0xFF]).2.log)
    = [[0x10, 0x02, 0x94, 0x03, 0x01, 0x10, 0x10, 0xFF, 0x59, 0x10, 0x03]] := by decide

/-! ## C08 Send -/

/-- C08: `Send` writes one 0x94 envelope holding priority, PGN (three bytes, low first),
destination, length and the first `Length` data bytes; if there are fewer data bytes it writes
nothing and returns an error; it panics exactly for `Length ≥ 250`. -/
theorem C08_Send (p : Port) (f : RawMessage) :
    (250 ≤ f.length.toNat → Send p f = .error .index) ∧
    (f.length.toNat < 250 → f.data.vis.length < f.length.toNat →
      ∃ n e, Send p f = .ok ((n, some e), p)) ∧
    (f.length.toNat < 250 → f.length.toNat ≤ f.data.vis.length →
      ∃ crc b0 b1 b2 payload p',
        Send p f = .ok (p.script p.log.length, p') ∧
        payload = [f.priority, b0, b1, b2, f.destination, f.length]
          ++ f.data.vis.take f.length.toNat ∧
        leValue [b0, b1, b2] = f.pgn % 2 ^ 24 ∧
        total ([0x94, UInt8.ofNat payload.length] ++ payload ++ [crc]) = 0 ∧
        p'.log = p.log ++ [envelope 0x94 (UInt8.ofNat payload.length) crc payload] ∧
        p'.script = p.script) := by
  have hf := f.length.toNat_lt
  have hadd : (f.length + 6).toNat = (f.length.toNat + 6) % 256 := by
    rw [UInt8.toNat_add]; rfl
  have hrep : ∀ n, List.replicate (n + 6) (0 : Byte)
      = 0 :: 0 :: 0 :: 0 :: 0 :: 0 :: List.replicate n 0 := fun n => rfl
  refine ⟨?_, ?_, ?_⟩
  · intro h
    have hl : (f.length + 6).toNat = f.length.toNat - 250 := by omega
    have hlt : f.length.toNat - 250 < 6 := by omega
    generalize f.length.toNat - 250 = k at hl hlt
    rw [Send, hl]
    have : k = 0 ∨ k = 1 ∨ k = 2 ∨ k = 3 ∨ k = 4 ∨ k = 5 := by omega
    rcases this with rfl | rfl | rfl | rfl | rfl | rfl <;>
      simp [setAt, bind, Except.bind]
  · intro h hd
    have hl : (f.length + 6).toNat = f.length.toNat + 6 := by omega
    refine ⟨min f.length.toNat f.data.vis.length, .msg "not enough space for data", ?_⟩
    have hm : min f.length.toNat f.data.vis.length < f.length.toNat := by omega
    simp only [Send, hl, hrep]
    simp [setAt, bind, Except.bind, copyAt, pure, Except.pure, hm]
  · intro h hd
    have hl : (f.length + 6).toNat = f.length.toNat + 6 := by omega
    have hm : min f.length.toNat f.data.vis.length = f.length.toNat := by omega
    let payload := [f.priority, UInt8.ofNat f.pgn, UInt8.ofNat (f.pgn >>> 8),
      UInt8.ofNat (f.pgn >>> 16), f.destination, f.length] ++ f.data.vis.take f.length.toNat
    refine ⟨-(0x94 + total payload + UInt8.ofNat payload.length), UInt8.ofNat f.pgn,
      UInt8.ofNat (f.pgn >>> 8), UInt8.ofNat (f.pgn >>> 16), payload,
      (write p N2kMsgSend payload).2, ?_, rfl, ?_, ?_, ?_, rfl⟩
    · simp only [Send, hl, hrep]
      simp [setAt, bind, Except.bind, copyAt, pure, Except.pure, hm, write, Port.write, payload,
        Nat.add_comm 6]
    · simp only [leValue, UInt8.toNat_ofNat', Nat.shiftRight_eq_div_pow]; omega
    · simp only [total_append, total]; grind
    · simp only [write, Port.write, writeBytes_envelope, N2kMsgSend]

example : ∃ p', Send ⟨[], fun _ => (15, none)⟩
    { priority := 2, pgn := 127250, source := 1, destination := 255, length := 2,
      data := ⟨[0xAA, 0x10, 0xCC], []⟩ } = .ok ((15, none), p') ∧
    p'.log = [[0x10, 0x02, 0x94, 0x08, 0x02, 0x12, 0xF1, 0x01, 0xFF, 0x02, 0xAA, 0x10, 0x10,
      0xA3, 0x10, 0x03]] := by
  exact ⟨_, rfl, by decide⟩

/-! ## C09 commands -/

/-- C09: PGN arguments are transmitted so that the receiver recovers them, for every 32-bit value. -/
theorem C09_pgn_roundtrip (i : Int) (h0 : 0 ≤ i) (h1 : i < 2 ^ 32) :
    (leValue (intToBytes i) : Int) = i := by
  obtain ⟨n, rfl⟩ := Int.eq_ofNat_of_zero_le h0
  have hn : n < 2 ^ 32 := by exact_mod_cast h1
  have e : ∀ m : Nat, (byteOfInt (m : Int)).toNat = m % 256 := by
    intro m
    simp only [byteOfInt, UInt8.toNat_ofNat']
    have : ((m : Int) % 256).toNat = m % 256 := by omega
    rw [this]; omega
  have s : ∀ k : Nat, ((n : Int) >>> k) = ((n >>> k : Nat) : Int) := by intro k; rfl
  simp only [intToBytes, leValue, s, e, Nat.shiftRight_eq_div_pow]
  omega

/-- The documented opcode of each command (table of the NGT-1 protocol, commands.go:33-62 names). -/
def opcode : Cmd → Option Byte
  | .Reboot => some 0x11
  | .ReInitMainApp => some 0x00
  | .CommitToEEPROM => some 0x01
  | .CommitToFlash => some 0x02
  | .GetHardwareInfo => some 0x10
  | .GetOperatingMode | .SetOperatingMode _ => some 0x11
  | .GetPortBaudCodes | .SetPortBaudCodes => some 0x12
  | .GetPortPCodes | .SetPortPCodes _ => some 0x13
  | .GetPortDupDelete | .SetPortDupDelete => some 0x14
  | .GetTotalTime | .SetTotalTime => some 0x15
  | .GetHardwareBaudCodes | .SetHardwareBaudCodes => some 0x16
  | .GetSupportedPGNList => some 0x40
  | .GetProductInfoN2K => some 0x41
  | .GetCANConfig | .SetCANConfig => some 0x42
  | .GetCANInfoField1 | .SetCANInfoField1 _ => some 0x43
  | .GetCANInfoField2 | .SetCANInfoField2 _ => some 0x44
  | .GetCANInfoField3 => some 0x45
  | .GetRxPGN _ | .SetRxPGN _ _ => some 0x46
  | .SetRxPGNEx _ _ _ | .SetTxPGNEx _ _ _ => none
  | .GetTxPGN _ | .SetTxPGN _ _ => some 0x47
  | .GetRxPGNList => some 0x48
  | .GetTxPGNList => some 0x49
  | .ClearRxPGNList | .ClearTxPGNList => some 0x4A
  | .ActivatePGNEnableLists => some 0x4B
  | .SetDefaultPGNEnableList _ => some 0x4C
  | .GetParamsPGNEnableLists => some 0x4D

/-- The documented arguments after the opcode, numbers as little-endian byte strings `le n`. -/
def arguments (le : Int → List Byte) : Cmd → List Byte
  | .SetOperatingMode m => (le (m.toNat : Int)).take 2
  | .SetPortPCodes l => l
  | .SetCANInfoField1 s | .SetCANInfoField2 s => [UInt8.ofNat (s.length + 2), 1] ++ s
  | .GetRxPGN n | .GetTxPGN n => le n
  | .SetRxPGN n e | .SetTxPGN n e => le n ++ (le e).take 1
  | .ClearRxPGNList => [0]
  | .ClearTxPGNList => [1]
  | .SetDefaultPGNEnableList i => [i]
  | _ => []

/-- C09: every command method emits its documented opcode followed by its arguments, in one
envelope with command byte 0xA1 (0x01 for `Reboot`). -/
theorem C09_encoding (p : Port) (c : Cmd) (op : Byte) (h : opcode c = some op) :
    (c.run p).2.log = p.log ++
      [writeBytes (if c = .Reboot then 0x01 else 0xA1) (op :: arguments intToBytes c)] := by
  cases c <;> simp [opcode] at h <;> subst h <;>
    simp [Cmd.run, Cmd.args, write, Port.write, arguments, intToBytes, ACmdSend,
      ACmdReInitMainApp, ACmdCommitToEEPROM, ACmdCommitToFlash, ACmdHardwareInfo,
      ACmdOperatingMode, ACmdPortBaudCfg, ACmdPortPCodeCfg, ACmdPortDupDelete, ACmdTotalTime,
      ACmdHardwareBaud, ACmdSupportedPGNList, ACmdProductInfoN2K, ACmdCANConfig,
      ACmdCANInfoField1, ACmdCANInfoField2, ACmdCANInfoField3, ACmdRxPGNEnable, ACmdTxPGNEnable,
      ACmdRxPGNEnableList, ACmdTxPGNEnableList, ACmdDeletePGNEnableList,
      ACmdActivatePGNEnableLists, ACmdDefaultPGNEnableList, ACmdParamsPGNEnableLists,
      RxPGNList, TxPGNList, byteOfInt]
  case SetOperatingMode m =>
    have hm := m.toNat_lt
    have h1 : ((m.toNat : Int) % 256).toNat = m.toNat % 256 := by omega
    have h2 : (((m.toNat : Int) >>> 8) % 256).toNat = (m.toNat >>> 8) % 256 := by
      have : ((m.toNat : Int) >>> 8) = ((m.toNat >>> 8 : Nat) : Int) := rfl
      rw [this]; omega
    have h3 : ∀ n, UInt8.ofNat (n % 256) = UInt8.ofNat n := by
      intro n; apply UInt8.toNat.inj; simp [UInt8.toNat_ofNat']
    have h4 : m.toUInt8 = UInt8.ofNat m.toNat := rfl
    rw [h1, h2, h3, h3, h4]

/-- What a device that knows the opcode table understands from a command frame. -/
def understand (command : Byte) (payload : List Byte) : Option Cmd :=
  if command = 0x01 then (if payload = [0x11] then some .Reboot else none)
  else if command ≠ 0xA1 then none
  else match payload with
    | [] => none
    | op :: args =>
      match op.toNat, args with
      | 0x00, [] => some .ReInitMainApp
      | 0x01, [] => some .CommitToEEPROM
      | 0x02, [] => some .CommitToFlash
      | 0x10, [] => some .GetHardwareInfo
      | 0x11, [] => some .GetOperatingMode
      | 0x11, [a, b] => some (.SetOperatingMode (UInt16.ofNat (leValue [a, b])))
      | 0x12, [] => some .GetPortBaudCodes
      | 0x13, [] => some .GetPortPCodes
      | 0x13, l => some (.SetPortPCodes l)
      | 0x14, [] => some .GetPortDupDelete
      | 0x15, [] => some .GetTotalTime
      | 0x16, [] => some .GetHardwareBaudCodes
      | 0x40, [] => some .GetSupportedPGNList
      | 0x41, [] => some .GetProductInfoN2K
      | 0x42, [] => some .GetCANConfig
      | 0x43, [] => some .GetCANInfoField1
      | 0x43, _ :: _ :: info => some (.SetCANInfoField1 info)
      | 0x44, [] => some .GetCANInfoField2
      | 0x44, _ :: _ :: info => some (.SetCANInfoField2 info)
      | 0x45, [] => some .GetCANInfoField3
      | 0x46, [a, b, c, d] => some (.GetRxPGN (leValue [a, b, c, d]))
      | 0x46, [a, b, c, d, e] => some (.SetRxPGN (leValue [a, b, c, d]) e.toNat)
      | 0x47, [a, b, c, d] => some (.GetTxPGN (leValue [a, b, c, d]))
      | 0x47, [a, b, c, d, e] => some (.SetTxPGN (leValue [a, b, c, d]) e.toNat)
      | 0x48, [] => some .GetRxPGNList
      | 0x49, [] => some .GetTxPGNList
      | 0x4A, [w] => if w = 0 then some .ClearRxPGNList else some .ClearTxPGNList
      | 0x4B, [] => some .ActivatePGNEnableLists
      | 0x4C, [i] => some (.SetDefaultPGNEnableList i)
      | 0x4D, [] => some .GetParamsPGNEnableLists
      | _, _ => none

/-- Commands with distinct meaning whose arguments fit their wire fields.  Excluded: setters that
the code implements without any payload (they emit the same frame as the getter), the two methods
that write nothing, and arguments outside 32-bit PGN / 8-bit flag range. -/
def Cmd.faithful : Cmd → Prop
  | .SetPortBaudCodes | .SetPortDupDelete | .SetTotalTime | .SetHardwareBaudCodes
  | .SetCANConfig => False
  | .SetPortPCodes l => l ≠ []
  | .SetRxPGNEx _ _ _ | .SetTxPGNEx _ _ _ => False
  | .GetRxPGN n | .GetTxPGN n => 0 ≤ n ∧ n < 2 ^ 32
  | .SetRxPGN n e | .SetTxPGN n e => (0 ≤ n ∧ n < 2 ^ 32) ∧ (0 ≤ e ∧ e < 256)
  | _ => True

theorem byteOfInt_toNat (e : Int) (h0 : 0 ≤ e) (h1 : e < 256) : ((byteOfInt e).toNat : Int) = e := by
  simp only [byteOfInt, UInt8.toNat_ofNat']; omega

/-- C09: every faithful command writes exactly one frame, from which the device recovers the
command and all its arguments; so no two faithful commands share a frame. -/
theorem C09_understood (p : Port) (c : Cmd) (h : c.faithful) :
    ∃ command payload, (c.run p).2.log = p.log ++ [writeBytes command payload] ∧
      understand command payload = some c := by
  have hrun : ∀ cmd pl, c.args = some (cmd, pl) →
      (c.run p).2.log = p.log ++ [writeBytes cmd pl] := by
    intro cmd pl h; simp [Cmd.run, h, write, Port.write]
  cases c
  case SetPortBaudCodes => exact h.elim
  case SetPortDupDelete => exact h.elim
  case SetTotalTime => exact h.elim
  case SetHardwareBaudCodes => exact h.elim
  case SetCANConfig => exact h.elim
  case SetRxPGNEx => exact h.elim
  case SetTxPGNEx => exact h.elim
  case SetOperatingMode m =>
    refine ⟨_, _, hrun _ _ rfl, ?_⟩
    have hm := m.toNat_lt
    simp only [understand, ACmdSend, ACmdOperatingMode]
    simp [leValue]
    apply UInt16.toNat.inj
    simp only [UInt16.toNat_add, UInt16.toNat_mul, UInt16.toNat_ofNat', UInt16.toNat_ofNat,
      UInt8.toNat_ofNat', Nat.shiftRight_eq_div_pow, UInt16.toNat_mod, UInt16.toNat_toUInt8]
    omega
  case SetPortPCodes l =>
    refine ⟨_, _, hrun _ _ rfl, ?_⟩
    cases l with
    | nil => exact absurd rfl h
    | cons a l => rfl
  case GetRxPGN n =>
    refine ⟨_, _, hrun _ _ rfl, ?_⟩
    have := C09_pgn_roundtrip n h.1 h.2
    simpa [understand, ACmdSend, ACmdRxPGNEnable, intToBytes] using this
  case GetTxPGN n =>
    refine ⟨_, _, hrun _ _ rfl, ?_⟩
    have := C09_pgn_roundtrip n h.1 h.2
    simpa [understand, ACmdSend, ACmdTxPGNEnable, intToBytes] using this
  case SetRxPGN n e =>
    refine ⟨_, _, hrun _ _ rfl, ?_⟩
    have := C09_pgn_roundtrip n h.1.1 h.1.2
    have h2 := byteOfInt_toNat e h.2.1 h.2.2
    simpa [understand, ACmdSend, ACmdRxPGNEnable, intToBytes, h2] using this
  case SetTxPGN n e =>
    refine ⟨_, _, hrun _ _ rfl, ?_⟩
    have := C09_pgn_roundtrip n h.1.1 h.1.2
    have h2 := byteOfInt_toNat e h.2.1 h.2.2
    simpa [understand, ACmdSend, ACmdTxPGNEnable, intToBytes, h2] using this
  all_goals exact ⟨_, _, hrun _ _ rfl, by rfl⟩

example : (Cmd.SetRxPGN 130306 1).faithful := by simp [Cmd.faithful]

/-! ## C10 open sequence -/

/-- C10: `OpenChannel` writes the operating-mode frame first; the P-code frame only if that
succeeded; it returns a port iff both writes succeeded, and otherwise the failing write's error. -/
theorem C10_open (p : Port) :
    let f1 := writeBytes 0xA1 [0x11, 2, 0]
    let f2 := writeBytes 0xA1 [0x13, 0, 0, 0]
    let e1 := (p.script p.log.length).2
    let e2 := (p.script (p.log.length + 1)).2
    match e1, e2 with
    | some e, _ => (OpenChannel p).1 = (false, some e) ∧ (OpenChannel p).2.log = p.log ++ [f1]
    | none, some e => (OpenChannel p).1 = (false, some e)
        ∧ (OpenChannel p).2.log = p.log ++ [f1, f2]
    | none, none => (OpenChannel p).1 = (true, none) ∧ (OpenChannel p).2.log = p.log ++ [f1, f2] := by
  simp only [OpenChannel, Cmd.run, Cmd.args, write, Port.write]
  cases h1 : (p.script p.log.length).2 with
  | some e => simp [OpModeRxAll, ACmdSend, ACmdOperatingMode]
  | none =>
    simp
    cases h2 : (p.script (p.log.length + 1)).2 <;>
      simp [OpModeRxAll, ACmdSend, ACmdOperatingMode, ACmdPortPCodeCfg]

/-! ## Receive -/

/-- The model's reader phase. -/
def phase : MsgState → Phase
  | .MsgStart => .hunt
  | .MsgEscape => .esc
  | .MsgMessage => .body

/-- Everything `Read` does on a byte stream is determined, frame by frame, by the contents its
framing layer delimits. -/
theorem session_outcome (g : Nat → Nat) (s : RState) (bs : List Byte) :
    Outcome (deframe (phase s.state) s.buf.vis bs) ((session g s (stream bs)).1.map Obs.seen) := by
  induction bs generalizing s with
  | nil => cases s.state <;> exact .nil
  | cons b bs ih =>
    obtain ⟨buf, rx, st⟩ := s
    cases st with
    | MsgStart =>
      by_cases h : b = 0x10
      · subst h
        exact ih ⟨buf, 0x10, .MsgEscape⟩
      · have := ih ⟨buf, b, .MsgStart⟩
        simpa [stream, session, byteStep, DLE, h, phase, deframe] using this
    | MsgMessage =>
      by_cases h : b = 0x10
      · subst h
        exact ih ⟨buf, 0x10, .MsgEscape⟩
      · have := ih ⟨buf.push g b, b, .MsgMessage⟩
        simpa [stream, session, byteStep, DLE, h, phase, deframe] using this
    | MsgEscape =>
      by_cases h3 : b = 0x03
      · subst h3
        have e : deframe (phase .MsgEscape) buf.vis (0x03 :: bs) = buf.vis :: deframe .hunt [] bs := rfl
        have hs : session g ⟨buf, rx, .MsgEscape⟩ (stream (0x03 :: bs))
            = finish g (messageReceived buf) (stream bs) := by
          simp only [stream, List.map_cons, session, byteStep, ETX, beq_self_eq_true, if_true, finish]
          cases messageReceived buf with
          | error e => rfl
          | ok r => cases r <;> rfl
        simp only [e, hs]
        have hv := message_verdict buf
        have i1 := ih RState.init
        have i2 := ih ⟨Slice.nil, ETX, .MsgStart⟩
        cases hvv : verdict buf.vis with
        | accept v =>
          rw [hvv] at hv; obtain ⟨m, hm, hd⟩ := hv
          rw [hm]; simp only [finish, List.map_cons, Obs.seen, hd]
          exact .accept hvv i1
        | reject =>
          rw [hvv] at hv; obtain ⟨er, he⟩ := hv
          rw [he]; exact .reject hvv i2
        | crash =>
          rw [hvv] at hv; obtain ⟨er, he⟩ := hv
          rw [he]; exact .crash hvv
        | overrun =>
          rw [hvv] at hv; obtain ⟨len, id, tail, hbuf, hif⟩ := hv
          split at hif
          · rename_i hcap
            obtain ⟨m, hm, hmv⟩ := hif
            have hov : ¬ len.toNat - 1 ≤ tail.length ∧ 12 ≤ len.toNat := by
              rw [hbuf] at hvv
              simp only [verdict] at hvv
              split at hvv
              · cases hvv
              · split at hvv
                · cases hvv
                · simp [ngtVerdict] at hvv
                  grind
            have hj : (tail ++ buf.spare).take (len.toNat - 1)
                = tail ++ buf.spare.take (len.toNat - 1 - tail.length) := by
              rw [List.take_append, List.take_of_length_le (by omega)]
            have hcap' : len.toNat + 2 ≤ tail.length + 3 + buf.spare.length := by
              rw [Slice.cap, hbuf] at hcap; simpa using hcap
            rw [hm]; simp only [finish, List.map_cons, Obs.seen, hmv, hj]
            refine .overrunMsg len id tail _ hvv hbuf ?_ i1
            rw [List.length_take]; omega
          · rw [hif]; exact .overrunCrash hvv
      · by_cases h2 : b = 0x02
        · subst h2; exact ih ⟨buf, 0x02, .MsgMessage⟩
        · by_cases h1 : b = 0x10
          · subst h1
            have := ih ⟨buf.push g 0x10, 0x10, .MsgMessage⟩
            simpa [stream, session, byteStep, DLE, ETX, STX, phase, deframe] using this
          · have := ih ⟨Slice.nil, b, .MsgStart⟩
            simpa [stream, session, byteStep, DLE, ETX, STX, h1, h2, h3, phase, deframe] using this

/-! ### C02 framing round trip -/

theorem deframe_escape (acc c rest : List Byte) :
    deframe .body acc (escape c ++ rest) = deframe .body (acc ++ c) rest := by
  induction c generalizing acc with
  | nil => simp [escape]
  | cons b c ih =>
    rw [escape_cons]
    by_cases h : b = 0x10
    · subst h; simp [deframe, ih]
    · simp [deframe, h, ih]

theorem frames_wire (c : List Byte) : frames (wire c) = [c] := by
  simp only [frames, wire, List.cons_append, List.nil_append, deframe, if_true]
  have := deframe_escape [] c [0x10, 0x03]
  simp only [List.nil_append] at this
  simp [this, deframe]

/-- Escaped bytes add at most one content byte each, whatever the phase. -/
theorem deframe_bound (l : List Byte) (ph : Phase) (acc rest : List Byte) (k : Nat)
    (hr : ∀ ph' acc', acc'.length ≤ acc.length + l.length →
      ∀ c ∈ deframe ph' acc' rest, c.length ≤ k)
    (hk : acc.length + l.length ≤ k) :
    ∀ c ∈ deframe ph acc (escape l ++ rest), c.length ≤ k := by
  induction l generalizing ph acc with
  | nil => intro c hc; exact hr ph acc (by simp) c hc
  | cons b l ih =>
    rw [escape_cons]
    simp only [List.length_cons] at hr hk
    have go : ∀ ph' acc', acc'.length ≤ acc.length + 1 →
        ∀ c ∈ deframe ph' acc' (escape l ++ rest), c.length ≤ k := by
      intro ph' acc' h'
      exact ih ph' acc' (fun ph'' acc'' h'' => hr ph'' acc'' (by omega)) (by omega)
    by_cases h : b = 0x10
    · subst h
      intro c hc
      cases ph <;> simp [deframe] at hc <;> exact go _ _ (by simp) c hc
    · intro c hc
      simp only [h, if_false, List.cons_append, List.nil_append] at hc
      cases ph with
      | hunt => simp only [deframe, h, if_false] at hc; exact go _ _ (by omega) c hc
      | body => simp only [deframe, h, if_false] at hc; exact go _ _ (by simp) c hc
      | esc =>
        simp only [deframe, h, if_false] at hc
        split at hc
        · simp only [List.mem_cons] at hc
          rcases hc with rfl | hc
          · omega
          · exact go _ _ (by simp) c hc
        · split at hc
          · exact go _ _ (by omega) c hc
          · exact go _ _ (by simp) c hc

/-- C02: what `write` sends, received by the same package's framing, comes back as the original
command, length, payload and checksum — exactly when neither the length byte nor the checksum byte
is 0x10 (the code does not escape those two). -/
theorem C02_roundtrip_iff (command : Byte) (payload : List Byte) (hc : command ≠ 0x10) :
    let len := UInt8.ofNat payload.length
    let crc := -(command + total payload + len)
    frames (writeBytes command payload) = [[command, len] ++ payload ++ [crc]]
      ↔ (len ≠ 0x10 ∧ crc ≠ 0x10) := by
  simp only []
  rw [writeBytes_envelope]
  generalize hlen : UInt8.ofNat payload.length = len
  generalize -(command + total payload + len) = crc
  constructor
  · intro h
    by_cases hl : len = 0x10
    · exfalso
      subst hl
      have hn : payload.length % 256 = 16 := by
        have := congrArg UInt8.toNat hlen
        simpa [UInt8.toNat_ofNat'] using this
      have e : frames (envelope command 0x10 crc payload)
          = deframe .esc [command] (escape payload ++ [crc, 0x10, 0x03]) := by
        simp [frames, envelope, deframe, hc]
      rw [e] at h
      have hb := deframe_bound payload .esc [command] [crc, 0x10, 0x03] (payload.length + 2)
        (by
          intro ph acc ha c hc
          simp only [List.length_cons, List.length_nil] at ha
          have : c.length ≤ acc.length + 1 := by
            cases ph <;> simp [deframe] at hc <;> grind
          omega)
        (by simp; omega)
        _ (by rw [h]; exact List.mem_singleton.2 rfl)
      simp at hb
      omega
    · refine ⟨hl, ?_⟩
      intro hcrc
      subst hcrc
      have e : frames (envelope command len 0x10 payload)
          = deframe .body ([command, len] ++ payload) [0x10, 0x10, 0x03] := by
        rw [← deframe_escape]
        simp [frames, envelope, deframe, hc, hl]
      rw [e] at h
      simp [deframe] at h
  · rintro ⟨hl, hcrc⟩
    have : envelope command len crc payload = wire ([command, len] ++ payload ++ [crc]) := by
      simp [envelope, wire, escape, hl, hcrc, hc]
    rw [this, frames_wire]

/-- C02 is false as an unconditional statement: any payload of 16 bytes fails, e.g. every `Send`
of a 10-byte message. -/
theorem C02_false : frames (writeBytes 0x94 (List.replicate 16 0))
    ≠ [[0x94, 16] ++ List.replicate 16 0 ++ [-(0x94 + 16)]] := by
  decide

/-- C02, the part that holds. -/
theorem C02_partial (command : Byte) (payload : List Byte) (hc : command ≠ 0x10)
    (hl : payload.length % 256 ≠ 16)
    (hs : total (command :: UInt8.ofNat payload.length :: payload) ≠ 0xF0) :
    ∃ crc, frames (writeBytes command payload)
      = [[command, UInt8.ofNat payload.length] ++ payload ++ [crc]]
      ∧ total ([command, UInt8.ofNat payload.length] ++ payload ++ [crc]) = 0 := by
  refine ⟨_, (C02_roundtrip_iff command payload hc).2 ⟨?_, ?_⟩, ?_⟩
  · intro h
    apply hl
    have := congrArg UInt8.toNat h
    simpa [UInt8.toNat_ofNat'] using this
  · intro h
    apply hs
    simp only [total]
    have : command + total payload + UInt8.ofNat payload.length = -0x10 := by rw [← h]; simp
    have h2 : (-0x10 : Byte) = 0xF0 := by decide
    rw [← h2, ← this]; grind
  · simp only [total_append, total]; grind

example : frames (writeBytes 0x94 [1, 2, 0x10, 3]) = [[0x94, 4, 1, 2, 0x10, 3, 0x52]] := by decide

/-! ### C03 every well-formed frame, in order -/

/-- Port activity between frames: bytes other than DLE, and reads that return nothing. -/
def Quiet (evs : List Ev) : Prop := ∀ e ∈ evs, e = .empty ∨ ∃ b, e = .byte b ∧ b ≠ 0x10

/-- A reader at a clean boundary whose last byte was not DLE is indistinguishable from a new one. -/
theorem session_clean (g : Nat → Nat) (rx : Byte) (h : rx ≠ 0x10) (evs : List Ev) :
    (session g ⟨Slice.nil, rx, .MsgStart⟩ evs).1 = (session g RState.init evs).1 := by
  induction evs with
  | nil => rfl
  | cons e evs ih =>
    cases e with
    | fail => rfl
    | byte b => rfl
    | empty =>
      simp [session, byteStep, DLE, h, RState.init] at ih ⊢
      exact ih

theorem session_quiet (g : Nat → Nat) (rx : Byte) (h : rx ≠ 0x10) (q evs : List Ev)
    (hq : Quiet q) :
    (session g ⟨Slice.nil, rx, .MsgStart⟩ (q ++ evs)).1 = (session g RState.init evs).1 := by
  induction q generalizing rx with
  | nil => exact session_clean g rx h evs
  | cons e q ih =>
    have hq' : Quiet q := fun e he => hq e (List.mem_cons_of_mem _ he)
    rcases hq e (List.mem_cons_self ..) with rfl | ⟨b, rfl, hb⟩
    · simp [session, byteStep, DLE, h]; exact ih rx h hq'
    · simp [session, byteStep, DLE, hb]; exact ih b hb hq'

theorem reads_quiet (g : Nat → Nat) (q evs : List Ev) (hq : Quiet q) :
    reads g (q ++ evs) = reads g evs := by
  unfold reads
  rw [show RState.init = ⟨Slice.nil, 0, .MsgStart⟩ from rfl,
    session_quiet g 0 (by decide) q evs hq]; rfl

theorem reads_wire (g : Nat → Nat) (c : List Byte) (evs : List Ev)
    (h : verdict c ≠ .crash ∧ verdict c ≠ .overrun) :
    reads g (stream (wire c) ++ evs) = ((accepted c).map Seen.msg).toList ++ reads g evs := by
  unfold reads stream
  rw [session_wire]
  have hv := message_verdict (pushAll g (opened g RState.init) c)
  have hvis : (pushAll g (opened g RState.init) c).vis = c := by
    simp [RState.init, opened]
  rw [hvis] at hv
  unfold accepted
  cases hc : verdict c with
  | accept v =>
    rw [hc] at hv; obtain ⟨m, hm, hd⟩ := hv
    simp [hm, finish, Obs.seen, hd]
  | reject =>
    rw [hc] at hv; obtain ⟨er, he⟩ := hv
    simp [he, finish, session_clean g ETX (by decide)]
  | crash => exact absurd hc h.1
  | overrun => exact absurd hc h.2

/-- C03: from any sequence of well-formed frames separated by quiet periods, successive `Read`s
return exactly the messages of the acceptable frames, in order. -/
theorem C03_all_frames (g : Nat → Nat) (fs : List (List Ev × List Byte)) (rest : List Ev)
    (hq : ∀ f ∈ fs, Quiet f.1)
    (hv : ∀ f ∈ fs, verdict f.2 ≠ .crash ∧ verdict f.2 ≠ .overrun) :
    reads g (fs.flatMap (fun f => f.1 ++ stream (wire f.2)) ++ rest)
      = fs.filterMap (fun f => (accepted f.2).map Seen.msg) ++ reads g rest := by
  induction fs with
  | nil => simp
  | cons f fs ih =>
    have ih := ih (fun f hf => hq f (List.mem_cons_of_mem _ hf))
      (fun f hf => hv f (List.mem_cons_of_mem _ hf))
    simp only [List.flatMap_cons, List.append_assoc]
    rw [reads_quiet g _ _ (hq f (List.mem_cons_self ..)),
      reads_wire g _ _ (hv f (List.mem_cons_self ..)), ih]
    simp only [List.filterMap_cons]
    cases accepted f.2 <;> simp

/-- A valid N2K frame content: priority 2, PGN 127250, source 1, 8 data bytes. -/
def sampleContent : List Byte :=
  [0x93, 19, 2, 0x12, 0xF1, 0x01, 255, 1, 0, 0, 0, 0, 8, 1, 2, 3, 0x10, 5, 6, 7, 8, 0x1c]

def sampleView : MsgView :=
  { priority := 2, pgn := 127250, source := 1, destination := 255, length := 8,
    data := [1, 2, 3, 0x10, 5, 6, 7, 8] }

example : verdict sampleContent = .accept sampleView := by decide

example : Quiet [.byte 7, .empty] := by
  intro e he; simp at he; rcases he with rfl | rfl
  · exact Or.inr ⟨7, rfl, by decide⟩
  · exact Or.inl rfl

/-! ### C04 resynchronisation -/

/-- A session that ends without a waiting reader has crashed. -/
theorem session_none_crash (g : Nat → Nat) (evs : List Ev) (s : RState)
    (hn : (session g s evs).2 = none) : Seen.crash ∈ (session g s evs).1.map Obs.seen := by
  induction evs generalizing s with
  | nil => simp [session] at hn
  | cons e evs ih =>
    cases e <;> simp only [session] at hn ⊢
    · split at hn
      · exact ih _ hn
      · have := ih _ hn
        simp only [List.map_cons, List.mem_cons]; exact Or.inr this
      · simp [Obs.seen]
    · split at hn
      · exact ih _ hn
      · have := ih _ hn
        simp only [List.map_cons, List.mem_cons]; exact Or.inr this
      · simp [Obs.seen]
    · have := ih _ hn
      simp only [List.map_cons, List.mem_cons]; exact Or.inr this

/-- C04: whatever the port delivered before (noise, empty reads, errors), the end of the first
complete well-formed frame is a clean boundary: unless the reader has crashed, everything after it
is decoded as by a new reader. -/
theorem C04_resync (g : Nat → Nat) (before : List Ev) (c : List Byte) (after : List Ev)
    (h : Seen.crash ∉ reads g (before ++ stream (wire c))) :
    reads g (before ++ stream (wire c) ++ after)
      = reads g (before ++ stream (wire c)) ++ reads g after := by
  unfold reads stream at *
  rw [List.append_assoc, session_append]
  rw [session_append] at h ⊢
  cases hs : (session g RState.init before).2 with
  | none =>
    exfalso
    rw [hs] at h
    exact h (session_none_crash _ _ _ hs)
  | some s =>
    rw [hs] at h
    have e := session_wire g s c ([] : List Ev)
    rw [List.append_nil] at e
    simp only [session_wire, e] at h ⊢
    cases hm : messageReceived (pushAll g (opened g s) c) with
    | error er => exfalso; apply h; simp [hm, finish, Obs.seen]
    | ok r =>
      cases r with
      | ok m => simp [finish, session]
      | error er => simp [finish, session, session_clean g ETX (by decide)]

/-- C04: a port error also leaves a clean boundary. -/
theorem C04_error_resets (g : Nat → Nat) (before after : List Ev)
    (h : Seen.crash ∉ reads g before) :
    reads g (before ++ .fail :: after) = reads g before ++ .ioErr :: reads g after := by
  unfold reads at *
  rw [session_append]
  cases hs : (session g RState.init before).2 with
  | none =>
    exfalso
    exact h (session_none_crash _ _ _ hs)
  | some s => simp [session, Obs.seen]

/-- Non-vacuity: garbage that swallows a first frame, then a good frame. -/
example : reads (fun _ => 0) (stream [0x55, 0x10, 0x02, 0x77] ++ stream (wire sampleContent)
    ++ stream (wire sampleContent)) = [.msg sampleView] := by decide

/-! ### C05 checksum protection -/

theorem verdict_checked {c : List Byte} (h : verdict c ≠ .reject) :
    3 ≤ c.length ∧ total c = 0 := by
  unfold verdict at h
  by_cases h3 : c.length < 3
  · simp [h3] at h
  · by_cases ht : total c = 0
    · exact ⟨by omega, ht⟩
    · simp [h3, ht] at h

theorem outcome_msg {cs : List (List Byte)} {o : List Seen} (h : Outcome cs o) {v : MsgView}
    (hm : Seen.msg v ∈ o) : ∃ c ∈ cs, verdict c = .accept v ∨ (verdict c = .overrun ∧
      ∃ len id tail junk, c = 0xA0 :: len :: id :: tail ∧ tail.length + junk.length + 1 = len.toNat ∧
        v = { priority := 0, pgn := 0x40000 + id.toNat, source := 0, destination := 0
              length := UInt8.ofNat (len.toNat - 1), data := tail ++ junk }) := by
  induction h with
  | nil => simp at hm
  | accept hv _ ih =>
    simp only [List.mem_cons, Seen.msg.injEq] at hm
    rcases hm with rfl | hm
    · exact ⟨_, List.mem_cons_self .., Or.inl hv⟩
    · obtain ⟨c, hc, h⟩ := ih hm; exact ⟨c, List.mem_cons_of_mem _ hc, h⟩
  | reject hv _ ih => obtain ⟨c, hc, h⟩ := ih hm; exact ⟨c, List.mem_cons_of_mem _ hc, h⟩
  | crash _ => simp at hm
  | overrunMsg len id tail junk hv hc hl _ ih =>
    simp only [List.mem_cons, Seen.msg.injEq] at hm
    rcases hm with hm | hm
    · exact ⟨_, List.mem_cons_self .., Or.inr ⟨hv, len, id, tail, junk, hc, hl, hm⟩⟩
    · obtain ⟨c, hc, h⟩ := ih hm; exact ⟨c, List.mem_cons_of_mem _ hc, h⟩
  | overrunCrash _ => simp at hm

/-- C05: a message is returned only for a delimited frame whose unescaped bytes sum to zero. -/
theorem C05_checksum (g : Nat → Nat) (bs : List Byte) (v : MsgView)
    (h : Seen.msg v ∈ reads g (stream bs)) :
    ∃ c ∈ frames bs, 3 ≤ c.length ∧ total c = 0 ∧ (verdict c = .accept v ∨ verdict c = .overrun) := by
  obtain ⟨c, hc, hv⟩ := outcome_msg (session_outcome g RState.init bs) h
  have hne : verdict c ≠ .reject := by
    rcases hv with h | ⟨h, _⟩ <;> rw [h] <;> simp
  exact ⟨c, hc, (verdict_checked hne).1, (verdict_checked hne).2, hv.imp id (·.1)⟩

theorem total_set (c : List Byte) (i : Nat) (hi : i < c.length) (b : Byte) :
    total (c.set i b) = total c - c[i] + b := by
  induction c generalizing i with
  | nil => simp at hi
  | cons x c ih =>
    cases i with
    | zero => simp only [List.set_cons_zero, total, List.getElem_cons_zero]; grind
    | succ i =>
      simp only [List.set_cons_succ, total, List.getElem_cons_succ]
      rw [ih i (by simpa using hi)]; grind

/-- C05: altering any one byte of a valid frame content makes the frame disappear: the reader
returns nothing for it, does not crash on it, and goes on undisturbed. -/
theorem C05_single_byte (g : Nat → Nat) (c : List Byte) (i : Nat) (hi : i < c.length) (b : Byte)
    (hb : b ≠ c[i]) (hc : total c = 0) (after : List Ev) :
    reads g (stream (wire (c.set i b)) ++ after) = reads g after := by
  have ht : total (c.set i b) ≠ 0 := by
    rw [total_set c i hi, hc]
    intro h; apply hb; grind
  have hr : verdict (c.set i b) = .reject := by
    unfold verdict; split
    · rfl
    · simp [ht]
  rw [reads_wire g _ _ (by rw [hr]; simp)]
  simp [accepted, hr]

example : total sampleContent = 0 ∧ (4 : Nat) < sampleContent.length
    ∧ (0x10 : Byte) ≠ sampleContent[4] := by decide

/-- A frame whose first 14 unescaped bytes themselves form a valid frame. -/
def nestedContent : List Byte :=
  [0x93, 11, 2, 0x12, 0xF1, 0x01, 255, 1, 0, 0, 0, 0, 0, 0x5C] ++ [0x41, 0x03, 0xBC]

/-- C05 does not extend to altering one byte on the wire: turning a data byte into DLE just before
a 0x03 makes a truncated frame that passes the checksum, and it is delivered. -/
theorem C05_wire_false :
    (wire nestedContent)[16]? = some 0x41 ∧
    reads (fun _ => 0) (stream ((wire nestedContent).set 16 0x10))
      = [.msg { priority := 2, pgn := 127250, source := 1, destination := 255, length := 0
                data := [] }] := by
  decide

theorem verdict_eq (x : Byte) (l : List Byte) (h3 : 3 ≤ (x :: l).length) (ht : total (x :: l) = 0) :
    verdict (x :: l) = if x = 0x93 then n2kVerdict l else if x = 0xA0 then ngtVerdict l else .reject := by
  have : ¬ (x :: l).length < 3 := by omega
  simp only [verdict, this, if_false, ht, ne_eq, not_true_eq_false, List.head?_cons, List.tail_cons,
    Option.some.injEq]

/-! ### C06, C12 contents of returned messages -/

/-- C06/C12: every message returned on a byte stream is, byte for byte, the content of one
delimited frame: an N2K frame with its header, `Length ≤ 223` and exactly `Length` data bytes, or an
NGT reply with PGN 0x40000+id carrying its declared bytes — or, when the declared length exceeds the
frame, `junk` from beyond it. -/
theorem C06_contents (g : Nat → Nat) (bs : List Byte) (v : MsgView)
    (h : Seen.msg v ∈ reads g (stream bs)) :
    ∃ c ∈ frames bs, total c = 0 ∧
      ((∃ len prio p0 p1 p2 dst src t0 t1 t2 t3 n tail,
          c = 0x93 :: len :: prio :: p0 :: p1 :: p2 :: dst :: src :: t0 :: t1 :: t2 :: t3 :: n :: tail
          ∧ 11 ≤ len.toNat ∧ n.toNat ≤ 223 ∧ n.toNat ≤ tail.length
          ∧ v = { priority := prio, pgn := leValue [p0, p1, p2], source := src
                  destination := dst, length := n, data := tail.take n.toNat }
          ∧ v.data.length = v.length.toNat) ∨
       (∃ len id tail data,
          c = 0xA0 :: len :: id :: tail ∧ 12 ≤ len.toNat ∧ len.toNat ≤ 254
          ∧ v = { priority := 0, pgn := 0x40000 + id.toNat, source := 0, destination := 0
                  length := UInt8.ofNat (len.toNat - 1), data := data }
          ∧ data.length = len.toNat - 1
          ∧ (if len.toNat - 1 ≤ tail.length then data = tail.take (len.toNat - 1)
             else ∃ junk, data = tail ++ junk))) := by
  obtain ⟨c, hc, hv⟩ := outcome_msg (session_outcome g RState.init bs) h
  have hne : verdict c ≠ .reject := by
    rcases hv with h | ⟨h, _⟩ <;> rw [h] <;> simp
  have htot := (verdict_checked hne).2
  have h3 := (verdict_checked hne).1
  refine ⟨c, hc, htot, ?_⟩
  match c, h3 with
  | x :: c', h3 =>
    have hlen : ¬ (x :: c').length < 3 := by omega
    rcases hv with hv | ⟨hv, len, id, tail, junk, hcc, hl, rfl⟩
    · simp only [verdict, hlen, if_false, htot, ne_eq, not_true_eq_false, List.head?_cons,
        List.tail_cons, Option.some.injEq] at hv
      split at hv
      · rename_i hx
        left
        revert hv
        fun_cases n2kVerdict c'
        case case3 len h11 prio p0 p1 p2 dst src t0 t1 t2 t3 n tail h1 =>
          intro hv
          injection hv with hv
          refine ⟨len, prio, p0, p1, p2, dst, src, t0, t1, t2, t3, n, tail, by rw [hx], by omega, h1.1,
            h1.2, ?_, ?_⟩
          · rw [← hv]; simp [leValue]; omega
          · rw [← hv]; simp; omega
        all_goals exact fun h => by cases h
      · split at hv
        · rename_i hx
          right
          revert hv
          fun_cases ngtVerdict c'
          case case3 len id tail h12 h255 ht =>
            intro hv
            injection hv with hv
            have := len.toNat_lt
            refine ⟨len, id, tail, _, by rw [hx], by omega, by omega, hv.symm, ?_, ?_⟩
            · rw [List.length_take]; omega
            · rw [if_pos ht]
          all_goals exact fun h => by cases h
        · cases hv
    · right
      injection hcc with hx hc'
      subst hc'
      subst hx
      have hov : 12 ≤ len.toNat ∧ len.toNat ≤ 254 ∧ ¬ len.toNat - 1 ≤ tail.length := by
        have := len.toNat_lt
        simp only [verdict, hlen, if_false, htot] at hv
        simp [ngtVerdict] at hv
        grind
      refine ⟨len, id, tail, tail ++ junk, rfl, hov.1, hov.2.1, rfl, ?_, ?_⟩
      · simp; omega
      · rw [if_neg hov.2.2]; exact ⟨junk, rfl⟩

example : Seen.msg sampleView ∈ reads (fun _ => 0) (stream (wire sampleContent)) := by decide

/-- An NGT reply declaring 20 bytes but carrying 2. -/
def shortReply : List Byte := [0xA0, 20, 0x11, 7, 0x34]

/-- C12 is false as stated: with capacity to spare, `Read` returns bytes the frame never had. -/
theorem C12_false : reads (fun _ => 64) (stream (wire shortReply))
    = [.msg { priority := 0, pgn := 0x40011, source := 0, destination := 0, length := 19
              data := [7, 0x34] ++ List.replicate 17 0 }] := by
  decide

/-- C12, the part that holds: a reply frame that contains its declared bytes is returned with PGN
0x40000+id and exactly those bytes. -/
theorem C12_partial (g : Nat → Nat) (len id : Byte) (tail : List Byte) (after : List Ev)
    (h1 : 12 ≤ len.toNat) (h2 : len.toNat ≤ 254) (h3 : len.toNat - 1 ≤ tail.length)
    (ht : total (0xA0 :: len :: id :: tail) = 0) :
    reads g (stream (wire (0xA0 :: len :: id :: tail)) ++ after)
      = .msg { priority := 0, pgn := 0x40000 + id.toNat, source := 0, destination := 0
               length := UInt8.ofNat (len.toNat - 1), data := tail.take (len.toNat - 1) }
        :: reads g after := by
  have hv : verdict (0xA0 :: len :: id :: tail) = .accept
      { priority := 0, pgn := 0x40000 + id.toNat, source := 0, destination := 0
        length := UInt8.ofNat (len.toNat - 1), data := tail.take (len.toNat - 1) } := by
    simp only [verdict, ht]
    have a : ¬ len.toNat < 12 := by omega
    have b : ¬ len.toNat = 255 := by omega
    simp [ngtVerdict, a, b, h3]
  rw [reads_wire g _ _ (by rw [hv]; simp)]
  simp [accepted, hv]

example : total (0xA0 :: 12 :: 0x11 :: [1, 2, 3, 4, 5, 6, 7, 8, 9, 10, 11, 0x01]) = 0 := by decide

/-- C06 converse: a valid N2K frame is returned with exactly its header and data. -/
theorem C06_accepts (g : Nat → Nat) (len prio p0 p1 p2 dst src t0 t1 t2 t3 n : Byte)
    (tail : List Byte) (after : List Ev)
    (h1 : 11 ≤ len.toNat) (h2 : n.toNat ≤ 223) (h3 : n.toNat ≤ tail.length)
    (ht : total (0x93 :: len :: prio :: p0 :: p1 :: p2 :: dst :: src :: t0 :: t1 :: t2 :: t3 :: n ::
      tail) = 0) :
    reads g (stream (wire (0x93 :: len :: prio :: p0 :: p1 :: p2 :: dst :: src :: t0 :: t1 :: t2 ::
        t3 :: n :: tail)) ++ after)
      = .msg { priority := prio, pgn := leValue [p0, p1, p2], source := src
               destination := dst, length := n, data := tail.take n.toNat } :: reads g after := by
  have hv : verdict (0x93 :: len :: prio :: p0 :: p1 :: p2 :: dst :: src :: t0 :: t1 :: t2 :: t3 :: n ::
      tail) = .accept { priority := prio, pgn := leValue [p0, p1, p2], source := src
                        destination := dst, length := n, data := tail.take n.toNat } := by
    rw [verdict_eq _ _ (by simp) ht]
    have a : ¬ len.toNat < 11 := by omega
    have e : p0.toNat + 256 * p1.toNat + 65536 * p2.toNat = leValue [p0, p1, p2] := by
      simp only [leValue]; omega
    simp only [if_true, n2kVerdict, a, if_false, h2, h3, and_self, e]
  rw [reads_wire g _ _ (by rw [hv]; simp)]
  simp [accepted, hv]

/-! ### C07 crashes -/

/-- Frame contents that make the reader index outside the frame, whatever the memory layout. -/
def Crashing (c : List Byte) : Prop :=
  3 ≤ c.length ∧ total c = 0 ∧ ∃ len, c[1]? = some len ∧
    ((c[0]? = some 0x93 ∧ 11 ≤ len.toNat ∧ c.length < 13) ∨ (c[0]? = some 0xA0 ∧ len.toNat = 255))

/-- Frame contents that declare more bytes than they have. -/
def Overrunning (c : List Byte) : Prop :=
  total c = 0 ∧ ∃ len id tail, c = 0xA0 :: len :: id :: tail ∧ 12 ≤ len.toNat ∧ len.toNat ≤ 254 ∧
    tail.length + 1 < len.toNat

theorem n2k_crash (l : List Byte) : n2kVerdict l = .crash ↔
    l = [] ∨ ∃ len rest, l = len :: rest ∧ 11 ≤ len.toNat ∧ rest.length < 11 := by
  fun_cases n2kVerdict l
  case case1 => simp
  case case2 len rest h => simp; intro; omega
  case case3 => simp
  case case4 => simp
  case case5 len rest h hne =>
    simp only [true_iff]
    right
    refine ⟨len, rest, rfl, by omega, ?_⟩
    match rest, hne with
    | [], _ | [_], _ | [_, _], _ | [_, _, _], _ | [_, _, _, _], _ | [_, _, _, _, _], _
    | [_, _, _, _, _, _], _ | [_, _, _, _, _, _, _], _ | [_, _, _, _, _, _, _, _], _
    | [_, _, _, _, _, _, _, _, _], _ | [_, _, _, _, _, _, _, _, _, _], _ => simp
    | a :: b :: c :: d :: e :: f :: g :: h :: i :: j :: k :: l, hne =>
      exact absurd rfl (hne a b c d e f g h i j k l)

theorem ngt_crash (len id : Byte) (tail : List Byte) :
    (ngtVerdict (len :: id :: tail) = .crash ↔ len.toNat = 255) ∧
    (ngtVerdict (len :: id :: tail) = .overrun ↔
      12 ≤ len.toNat ∧ len.toNat ≤ 254 ∧ tail.length + 1 < len.toNat) := by
  have := len.toNat_lt
  simp only [ngtVerdict]
  split
  · simp; omega
  · split
    · simp; omega
    · split <;> simp <;> omega

theorem n2k_not_overrun (l : List Byte) : n2kVerdict l ≠ .overrun := by
  fun_cases n2kVerdict l <;> simp

/-- The spec's crash verdict, spelled out. -/
theorem crash_iff (c : List Byte) : verdict c = .crash ↔ Crashing c := by
  by_cases hv : verdict c = .reject
  · rw [hv]
    refine ⟨fun h => Verdict.noConfusion h, ?_⟩
    rintro ⟨h3, ht, len, hl, h⟩
    match c, h3 with
    | x :: y :: z :: rest, h3 =>
      rw [verdict_eq _ _ h3 ht] at hv
      simp only [List.getElem?_cons_succ, List.getElem?_cons_zero, Option.some.injEq] at hl h
      subst hl
      rcases h with ⟨rfl, h11, hl⟩ | ⟨rfl, h255⟩
      · have : n2kVerdict (y :: z :: rest) = .crash :=
          (n2k_crash _).2 (Or.inr ⟨y, _, rfl, h11, by simp at hl ⊢; omega⟩)
        simp [this] at hv
      · have := (ngt_crash y z rest).1.2 h255
        simp [this] at hv
  · obtain ⟨h3, ht⟩ := verdict_checked hv
    match c, h3 with
    | x :: y :: z :: rest, h3 =>
      rw [verdict_eq _ _ h3 ht]
      unfold Crashing
      simp only [h3, ht, true_and, List.getElem?_cons_succ, List.getElem?_cons_zero,
        Option.some.injEq, exists_eq_left']
      by_cases h93 : x = 0x93
      · subst h93
        rw [if_pos rfl, n2k_crash]
        constructor
        · rintro (h | ⟨len, r, he, h1, h2⟩)
          · cases h
          · injection he with e1 e2
            subst e1; subst e2
            exact Or.inl ⟨rfl, h1, by simp at h2 ⊢; omega⟩
        · rintro (⟨_, h1, h2⟩ | ⟨h, _⟩)
          · exact Or.inr ⟨y, _, rfl, h1, by simp at h2 ⊢; omega⟩
          · exact absurd h (by decide)
      · by_cases hA0 : x = 0xA0
        · subst hA0
          simp only [if_true, if_neg h93, (ngt_crash y z rest).1]
          simp
        · simp [h93, hA0]

/-- The spec's overrun verdict, spelled out. -/
theorem overrun_iff (c : List Byte) : verdict c = .overrun ↔ Overrunning c := by
  constructor
  · intro hv
    obtain ⟨h3, ht⟩ := verdict_checked (c := c) (by rw [hv]; simp)
    match c, h3 with
    | x :: y :: z :: rest, h3 =>
      rw [verdict_eq _ _ h3 ht] at hv
      by_cases h93 : x = 0x93
      · rw [if_pos h93] at hv; exact absurd hv (n2k_not_overrun _)
      · by_cases hA0 : x = 0xA0
        · rw [if_neg h93, if_pos hA0] at hv
          subst hA0
          exact ⟨ht, y, z, rest, rfl, (ngt_crash y z rest).2.1 hv⟩
        · simp [h93, hA0] at hv
  · rintro ⟨ht, len, id, tail, rfl, h⟩
    rw [verdict_eq _ _ (by simp) ht]
    have := (ngt_crash len id tail).2.2 h
    simp [this]

theorem outcome_crash {cs : List (List Byte)} {o : List Seen} (h : Outcome cs o)
    (hc : Seen.crash ∈ o) : ∃ c ∈ cs, verdict c = .crash ∨ verdict c = .overrun := by
  induction h with
  | nil => simp at hc
  | accept hv _ ih =>
    simp only [List.mem_cons, reduceCtorEq, false_or] at hc
    obtain ⟨c, hc, h⟩ := ih hc; exact ⟨c, List.mem_cons_of_mem _ hc, h⟩
  | reject hv _ ih => obtain ⟨c, hc, h⟩ := ih hc; exact ⟨c, List.mem_cons_of_mem _ hc, h⟩
  | crash hv => exact ⟨_, List.mem_cons_self .., Or.inl hv⟩
  | overrunMsg len id tail junk hv _ _ _ ih =>
    simp only [List.mem_cons, reduceCtorEq, false_or] at hc
    obtain ⟨c, hc, h⟩ := ih hc; exact ⟨c, List.mem_cons_of_mem _ hc, h⟩
  | overrunCrash hv => exact ⟨_, List.mem_cons_self .., Or.inr hv⟩

theorem outcome_crash_of {cs : List (List Byte)} {o : List Seen} (h : Outcome cs o)
    {c : List Byte} (hc : c ∈ cs) (hv : verdict c = .crash) : Seen.crash ∈ o := by
  induction h with
  | nil => simp at hc
  | accept hv' _ ih | overrunMsg _ _ _ _ hv' _ _ _ ih =>
    simp only [List.mem_cons] at hc
    rcases hc with rfl | hc
    · rw [hv] at hv'; cases hv'
    · exact List.mem_cons_of_mem _ (ih hc)
  | reject hv' _ ih =>
    simp only [List.mem_cons] at hc
    rcases hc with rfl | hc
    · rw [hv] at hv'; cases hv'
    · exact ih hc
  | crash _ | overrunCrash _ => simp

/-- C07 is false: seven bytes from the line (checksum correct) crash the reader. -/
theorem C07_false : reads (fun _ => 0) (stream [0x10, 0x02, 0x93, 0x0B, 0x62, 0x10, 0x03]) = [.crash] := by
  decide

/-- C07, the exact part: on a byte stream the reader crashes only on a delimited frame that is
`Crashing` or `Overrunning`, and always crashes if some delimited frame is `Crashing`. -/
theorem C07_partial (g : Nat → Nat) (bs : List Byte) :
    (Seen.crash ∈ reads g (stream bs) → ∃ c ∈ frames bs, Crashing c ∨ Overrunning c) ∧
    ((∃ c ∈ frames bs, Crashing c) → Seen.crash ∈ reads g (stream bs)) := by
  have ho := session_outcome g RState.init bs
  constructor
  · intro h
    obtain ⟨c, hc, hv⟩ := outcome_crash ho h
    exact ⟨c, hc, hv.imp (crash_iff c).1 (overrun_iff c).1⟩
  · rintro ⟨c, hc, hv⟩
    exact outcome_crash_of ho hc ((crash_iff c).2 hv)

theorem push_cap_mono (g : Nat → Nat) (s : Slice) (b : Byte) : s.cap ≤ (s.push g b).cap := by
  unfold Slice.push Slice.cap; split <;> rename_i h <;> simp [h] <;> omega

theorem pushAll_cap_mono (g : Nat → Nat) (s : Slice) (bs : List Byte) :
    s.cap ≤ (pushAll g s bs).cap := by
  induction bs generalizing s with
  | nil => exact Nat.le_refl _
  | cons b bs ih => exact Nat.le_trans (push_cap_mono g s b) (ih (s.push g b))

theorem pushAll_tight (s : Slice) (bs : List Byte) (h : s.spare = []) :
    (pushAll (fun _ => 0) s bs).spare = [] := by
  induction bs generalizing s with
  | nil => exact h
  | cons b bs ih => exact ih _ (by simp [Slice.push, h])

/-- C07: on an `Overrunning` frame the allocator decides: with exact allocation the reader
crashes, with generous allocation it returns a message. -/
theorem C07_overrun (c : List Byte) (h : Overrunning c) :
    reads (fun _ => 0) (stream (wire c)) = [.crash] ∧
    ∃ g v, reads g (stream (wire c)) = [.msg v] := by
  have hv := (overrun_iff c).2 h
  obtain ⟨ht, len, id, tail, hc, h12, h254, hlen⟩ := h
  have hw : ∀ g, reads g (stream (wire c))
      = ((finish g (messageReceived (pushAll g Slice.nil c)) []).1).map Obs.seen := by
    intro g
    have := session_wire g RState.init c []
    simp only [List.append_nil] at this
    simp only [reads, stream, this]; rfl
  have key : ∀ g, ∃ len' id' tail', c = 0xA0 :: len' :: id' :: tail' ∧
      if len'.toNat + 2 ≤ (pushAll g Slice.nil c).cap then
        ∃ m, messageReceived (pushAll g Slice.nil c) = .ok (.ok m)
      else messageReceived (pushAll g Slice.nil c) = .error .slice := by
    intro g
    have h1 := message_verdict (pushAll g Slice.nil c)
    have hvis : (pushAll g Slice.nil c).vis = c := by simp
    rw [hvis, hv] at h1
    obtain ⟨len', id', tail', hc', hif⟩ := h1
    refine ⟨len', id', tail', hc', ?_⟩
    split at hif
    · rename_i hcap; rw [if_pos hcap]; exact ⟨_, hif.choose_spec.1⟩
    · rename_i hcap; rw [if_neg hcap]; exact hif
  constructor
  · obtain ⟨len', id', tail', hc', hif⟩ := key (fun _ => 0)
    have e : len' = len := by rw [hc] at hc'; simp at hc'; exact hc'.1.symm
    have hcap : (pushAll (fun _ => 0) Slice.nil c).cap = tail.length + 3 := by
      rw [Slice.cap, pushAll_tight _ _ rfl, pushAll_vis, hc]; simp
    rw [if_neg (by rw [hcap, e]; omega)] at hif
    rw [hw, hif]; rfl
  · refine ⟨fun _ => 300, ?_⟩
    obtain ⟨len', id', tail', hc', hif⟩ := key (fun _ => 300)
    have hcap : 301 ≤ (pushAll (fun _ => 300) Slice.nil c).cap := by
      rw [hc]
      refine Nat.le_trans ?_ (pushAll_cap_mono _ (Slice.push (fun _ => 300) Slice.nil 0xA0) _)
      simp only [Slice.push, Slice.nil, Slice.cap, List.length_append, List.length_replicate,
        List.length_cons, List.length_nil]
      omega
    have := len'.toNat_lt
    rw [if_pos (by omega)] at hif
    obtain ⟨m, hm⟩ := hif
    exact ⟨m.view, by rw [hw, hm]; rfl⟩

example : Overrunning shortReply := ⟨by decide, 20, 0x11, [7, 0x34], rfl, by decide, by decide, by decide⟩
example : Crashing [0x93, 0x0B, 0x62] :=
  ⟨by decide, by decide, 0x0B, rfl, Or.inl ⟨rfl, by decide, by decide⟩⟩

/-! ### C11 empty reads -/

/-- C11 is false: a read that returns no byte inside a frame makes the previous byte count twice,
and the frame is lost. -/
theorem C11_false :
    reads (fun _ => 0) (stream (wire sampleContent)) = [.msg sampleView] ∧
    reads (fun _ => 0) (stream ((wire sampleContent).take 5) ++ [.empty]
      ++ stream ((wire sampleContent).drop 5)) = [] := by
  decide

/-- C11, the part that holds: empty reads are harmless at any frame boundary — at the start, and
after any history that ends with a complete frame or a port error. -/
theorem C11_partial (g : Nat → Nat) (before : List Ev) (c : List Byte) (n : Nat) (after : List Ev) :
    reads g (List.replicate n .empty ++ after) = reads g after ∧
    (Seen.crash ∉ reads g (before ++ stream (wire c)) →
      reads g (before ++ stream (wire c) ++ List.replicate n .empty ++ after)
        = reads g (before ++ stream (wire c) ++ after)) ∧
    (Seen.crash ∉ reads g before →
      reads g (before ++ .fail :: (List.replicate n .empty ++ after))
        = reads g (before ++ .fail :: after)) := by
  have hq : Quiet (List.replicate n .empty) := by
    intro e he; exact Or.inl (List.eq_of_mem_replicate he)
  refine ⟨reads_quiet g _ _ hq, ?_, ?_⟩
  · intro h
    rw [List.append_assoc, C04_resync g before c _ h, C04_resync g before c _ h,
      reads_quiet g _ _ hq]
  · intro h
    rw [C04_error_resets g _ _ h, C04_error_resets g _ _ h, reads_quiet g _ _ hq]

end Argo.Actisense
