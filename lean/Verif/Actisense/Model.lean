import Verif.Go

set_option autoImplicit false

/-!
# Model of package `actisense`

Transcribed from /repo/actisense/actisense.go and /repo/actisense/commands.go.
Receipt timestamps (`time.Now()`) and log text are not modelled.
-/

namespace Argo.Actisense

/-- actisense.go:33 `STX = 0x02`. -/
def STX : Byte := 0x02
/-- actisense.go:34 `ETX = 0x03`. -/
def ETX : Byte := 0x03
/-- actisense.go:35 `DLE = 0x10`. -/
def DLE : Byte := 0x10

/-- commands.go:24 `N2kMsgRecv = 0x93`. -/
def N2kMsgRecv : Byte := 0x93
/-- commands.go:25 `N2kMsgSend = 0x94`. -/
def N2kMsgSend : Byte := 0x94
/-- commands.go:28 `ACmdRecv = 0xA0`. -/
def ACmdRecv : Byte := 0xA0
/-- commands.go:29 `ACmdSend = 0xA1`. -/
def ACmdSend : Byte := 0xA1

/-! ## Transmit -/

/-- One iteration of the payload loop, actisense.go:163-169; the state is `(bst, crc)`. -/
def writeStep (st : List Byte × Byte) (b : Byte) : List Byte × Byte :=
  let bst := if b == DLE then st.1 ++ [DLE] else st.1
  (bst ++ [b], st.2 + b)

/-- The buffer `bst` that `write` hands to the port, actisense.go:156-175.
`byte(len(payload))` is `UInt8.ofNat`, which reduces modulo 256; `byte(256 - int(crc))` likewise. -/
def writeBytes (command : Byte) (payload : List Byte) : List Byte :=
  let bst : List Byte := [DLE, STX]
  let bst := bst ++ [command, UInt8.ofNat payload.length]
  let crc := command
  let (bst, crc) := payload.foldl writeStep (bst, crc)
  let crc := crc + UInt8.ofNat payload.length
  let crc := UInt8.ofNat (256 - crc.toNat)
  bst ++ [crc, DLE, ETX]

/-- `(*ActisensePort).write`, actisense.go:156-178. -/
def write (p : Port) (command : Byte) (payload : List Byte) : (Nat × Option Err) × Port :=
  p.write (writeBytes command payload)

/-- `(*ActisensePort).Write`, actisense.go:88-90. -/
def Write (p : Port) (payload : List Byte) : (Nat × Option Err) × Port :=
  write p N2kMsgSend payload

/-- `(*ActisensePort).Send`, actisense.go:137-154.  `make([]byte, frame.Length+6)` adds in
`uint8`, so it wraps; `buf[6:]` panics when the buffer is shorter than 6 (already caught by the
assignment to `buf[5]`). -/
def Send (p : Port) (frame : RawMessage) : GoM ((Nat × Option Err) × Port) := do
  let buf := List.replicate (frame.length + 6).toNat (0 : Byte)
  let buf ← setAt buf 0 frame.priority
  let buf ← setAt buf 1 (UInt8.ofNat frame.pgn)
  let buf ← setAt buf 2 (UInt8.ofNat (frame.pgn >>> 8))
  let buf ← setAt buf 3 (UInt8.ofNat (frame.pgn >>> 16))
  let buf ← setAt buf 4 frame.destination
  let buf ← setAt buf 5 frame.length
  let (buf, n) := copyAt buf 6 frame.data.vis
  if n < frame.length.toNat then
    return ((n, some (.msg "not enough space for data")), p)
  return write p N2kMsgSend buf

/-! ## Receive -/

/-- `n2kMessageReceived`, actisense.go:206-234. -/
def n2kMessageReceived (msg : Slice) : GoM (Except Err RawMessage) := do
  let m0 ← msg.get 0
  if m0 < 11 then
    return .error (.msg "ignore short msg")
  let m1 ← msg.get 1
  let m2 ← msg.get 2
  let m3 ← msg.get 3
  let m4 ← msg.get 4
  let m5 ← msg.get 5
  let m6 ← msg.get 6
  let lth ← msg.get 11
  if lth > 223 then
    return .error (.msg "ignore long msg")
  let length := lth
  let lth := lth + 12
  if lth.toNat > msg.len then
    return .error (.msg "ignore corrupt msg / data length")
  let data ← msg.sub 12 lth.toNat
  return .ok { priority := m1
               pgn := m2.toNat ||| (m3.toNat <<< 8) ||| (m4.toNat <<< 16)
               destination := m5
               source := m6
               length := length
               data := data }

/-- `ngtMessageReceived`, actisense.go:236-255.  `pLen++` wraps in `uint8`. -/
def ngtMessageReceived (msg : Slice) : GoM (Except Err RawMessage) := do
  let pLen ← msg.get 0
  if pLen < 12 then
    return .error (.msg "ignore short msg")
  let m1 ← msg.get 1
  let length := pLen - 1
  let pLen := pLen + 1
  let data ← msg.sub 2 pLen.toNat
  return .ok { priority := 0
               pgn := 0x40000 + m1.toNat
               destination := 0
               source := 0
               length := length
               data := data }

/-- `messageReceived`, actisense.go:180-204. -/
def messageReceived (msg : Slice) : GoM (Except Err RawMessage) := do
  if msg.len < 3 then
    return .error (.msg "ignore short command")
  let checksum := msg.vis.foldl (fun acc c => acc + c) (0 : Byte)
  if checksum != 0 then
    return .error (.msg "ignoring message with invalid checksum")
  let command ← msg.get 0
  if command == N2kMsgRecv then
    n2kMessageReceived (← msg.from' 1)
  else if command == ACmdRecv then
    ngtMessageReceived (← msg.from' 1)
  else
    return .error (.msg "unknown message type received")

/-- `MsgState`, actisense.go:38-44. -/
inductive MsgState where
  | MsgStart | MsgEscape | MsgMessage
  deriving DecidableEq, Repr

/-- The locals of `Read`, actisense.go:93-96: `buf`, `rxbuf[0]`, `state`. -/
structure RState where
  buf : Slice
  rx : Byte
  state : MsgState
  deriving DecidableEq, Repr

/-- Initial locals of a `Read` call, actisense.go:93-95. -/
def RState.init : RState := ⟨Slice.nil, 0, .MsgStart⟩

/-- What processing one byte does: keep looping, return a message, or panic. -/
inductive StepOut where
  | loop (s : RState)
  | ret (m : RawMessage)
  | crash (e : Panic)
  deriving DecidableEq, Repr

/-- The body of the byte loop, actisense.go:104-133.  `g` is the allocator's slack for `append`. -/
def byteStep (g : Nat → Nat) (s : RState) (b : Byte) : StepOut :=
  match s.state with
  | .MsgEscape =>
    if b == ETX then
      match messageReceived s.buf with
      | .error e => .crash e
      | .ok (.ok m) => .ret m
      | .ok (.error _) => .loop { s with buf := Slice.nil, state := .MsgStart }
    else if b == STX then
      .loop { s with state := .MsgMessage }
    else if b == DLE then
      .loop { s with buf := s.buf.push g b, state := .MsgMessage }
    else
      .loop { s with buf := Slice.nil, state := .MsgStart }
  | .MsgMessage =>
    if b == DLE then
      .loop { s with state := .MsgEscape }
    else
      .loop { s with buf := s.buf.push g b }
  | .MsgStart =>
    if b == DLE then
      .loop { s with state := .MsgEscape }
    else
      .loop s

/-- What the caller of `Read` observes over time. -/
inductive Obs where
  | msg (m : RawMessage)
  | ioErr
  | crash (e : Panic)
  deriving DecidableEq, Repr

/-- Repeated `Read` calls (as in main/argo.go:291-298) over a sequence of port outcomes,
actisense.go:92-135.  The result is the list of observations and, unless the process crashed, the
locals of the `Read` call still waiting for input.  The error of `p.p.Read` is returned before the
byte loop, so it drops the accumulated locals (they are local variables). -/
def session (g : Nat → Nat) : RState → List Ev → List Obs × Option RState
  | s, [] => ([], some s)
  | _, .fail :: evs =>
    let (o, f) := session g RState.init evs
    (.ioErr :: o, f)
  | s, .byte b :: evs =>
    match byteStep g { s with rx := b } b with
    | .loop s' => session g s' evs
    | .ret m =>
      let (o, f) := session g RState.init evs
      (.msg m :: o, f)
    | .crash e => ([.crash e], none)
  | s, .empty :: evs =>
    match byteStep g s s.rx with
    | .loop s' => session g s' evs
    | .ret m =>
      let (o, f) := session g RState.init evs
      (.msg m :: o, f)
    | .crash e => ([.crash e], none)

/-! ## Commands (commands.go) -/

/-- commands.go:35 -/
def ACmdReInitMainApp : Byte := 0
/-- commands.go:36 -/
def ACmdCommitToEEPROM : Byte := 1
/-- commands.go:37 -/
def ACmdCommitToFlash : Byte := 2
/-- commands.go:40 -/
def ACmdHardwareInfo : Byte := 0x10
/-- commands.go:41 -/
def ACmdOperatingMode : Byte := 0x11
/-- commands.go:42 -/
def ACmdPortBaudCfg : Byte := 0x12
/-- commands.go:43 -/
def ACmdPortPCodeCfg : Byte := 0x13
/-- commands.go:44 -/
def ACmdPortDupDelete : Byte := 0x14
/-- commands.go:45 -/
def ACmdTotalTime : Byte := 0x15
/-- commands.go:46 -/
def ACmdHardwareBaud : Byte := 0x16
/-- commands.go:49 -/
def ACmdSupportedPGNList : Byte := 0x40
/-- commands.go:50 -/
def ACmdProductInfoN2K : Byte := 0x41
/-- commands.go:51 -/
def ACmdCANConfig : Byte := 0x42
/-- commands.go:52 -/
def ACmdCANInfoField1 : Byte := 0x43
/-- commands.go:53 -/
def ACmdCANInfoField2 : Byte := 0x44
/-- commands.go:54 -/
def ACmdCANInfoField3 : Byte := 0x45
/-- commands.go:55 -/
def ACmdRxPGNEnable : Byte := 0x46
/-- commands.go:56 -/
def ACmdTxPGNEnable : Byte := 0x47
/-- commands.go:57 -/
def ACmdRxPGNEnableList : Byte := 0x48
/-- commands.go:58 -/
def ACmdTxPGNEnableList : Byte := 0x49
/-- commands.go:59 -/
def ACmdDeletePGNEnableList : Byte := 0x4A
/-- commands.go:60 -/
def ACmdActivatePGNEnableLists : Byte := 0x4B
/-- commands.go:61 -/
def ACmdDefaultPGNEnableList : Byte := 0x4C
/-- commands.go:62 -/
def ACmdParamsPGNEnableLists : Byte := 0x4D

/-- commands.go:90 `RxPGNList` -/
def RxPGNList : Byte := 0
/-- commands.go:91 `TxPGNList` -/
def TxPGNList : Byte := 1

/-- `byte(i)` for a Go `int` (any sign). -/
def byteOfInt (i : Int) : Byte := UInt8.ofNat (i % 256).toNat

/-- `intToBytes`, commands.go:268-270; `>>` on a signed int is floor division. -/
def intToBytes (i : Int) : List Byte :=
  [byteOfInt i, byteOfInt (i >>> 8), byteOfInt (i >>> 16), byteOfInt (i >>> 24)]

/-- One constructor per command method of `ActisensePort` in commands.go:94-266.
`info` strings are given as bytes. -/
inductive Cmd where
  | Reboot | ReInitMainApp | CommitToEEPROM | CommitToFlash | GetHardwareInfo
  | GetOperatingMode | SetOperatingMode (mode : UInt16)
  | GetPortBaudCodes | SetPortBaudCodes | GetPortPCodes | SetPortPCodes (pcodes : List Byte)
  | GetPortDupDelete | SetPortDupDelete | GetTotalTime | SetTotalTime
  | GetHardwareBaudCodes | SetHardwareBaudCodes
  | GetSupportedPGNList | GetProductInfoN2K | GetCANConfig | SetCANConfig
  | GetCANInfoField1 | SetCANInfoField1 (info : List Byte)
  | GetCANInfoField2 | SetCANInfoField2 (info : List Byte)
  | GetCANInfoField3
  | GetRxPGN (pgn : Int) | SetRxPGN (pgn enable : Int) | SetRxPGNEx (pgn enable mask : Int)
  | GetTxPGN (pgn : Int) | SetTxPGN (pgn enable : Int) | SetTxPGNEx (pgn enable mask : Int)
  | GetRxPGNList | GetTxPGNList | ClearRxPGNList | ClearTxPGNList
  | ActivatePGNEnableLists | SetDefaultPGNEnableList (id : Byte) | GetParamsPGNEnableLists
  deriving DecidableEq, Repr

/-- The `(command, payload)` each method passes to `write`; `none` for the two methods that
return `-1, nil` without writing (commands.go:219-221, 236-238). -/
def Cmd.args : Cmd → Option (Byte × List Byte)
  | .Reboot => some (0x01, [0x11])                                            -- 94-96
  | .ReInitMainApp => some (ACmdSend, [ACmdReInitMainApp])                    -- 98-100
  | .CommitToEEPROM => some (ACmdSend, [ACmdCommitToEEPROM])                  -- 102-104
  | .CommitToFlash => some (ACmdSend, [ACmdCommitToFlash])                    -- 106-108
  | .GetHardwareInfo => some (ACmdSend, [ACmdHardwareInfo])                   -- 110-112
  | .GetOperatingMode => some (ACmdSend, [ACmdOperatingMode])                 -- 114-116
  | .SetOperatingMode mode =>                                                 -- 118-120
    some (ACmdSend, [ACmdOperatingMode, UInt8.ofNat mode.toNat, UInt8.ofNat (mode.toNat >>> 8)])
  | .GetPortBaudCodes => some (ACmdSend, [ACmdPortBaudCfg])                   -- 122-124
  | .SetPortBaudCodes => some (ACmdSend, [ACmdPortBaudCfg])                   -- 126-128
  | .GetPortPCodes => some (ACmdSend, [ACmdPortPCodeCfg])                     -- 130-132
  | .SetPortPCodes pcodes => some (ACmdSend, [ACmdPortPCodeCfg] ++ pcodes)    -- 134-140
  | .GetPortDupDelete => some (ACmdSend, [ACmdPortDupDelete])                 -- 142-144
  | .SetPortDupDelete => some (ACmdSend, [ACmdPortDupDelete])                 -- 146-148
  | .GetTotalTime => some (ACmdSend, [ACmdTotalTime])                         -- 150-152
  | .SetTotalTime => some (ACmdSend, [ACmdTotalTime])                         -- 154-156
  | .GetHardwareBaudCodes => some (ACmdSend, [ACmdHardwareBaud])              -- 158-160
  | .SetHardwareBaudCodes => some (ACmdSend, [ACmdHardwareBaud])              -- 162-164
  | .GetSupportedPGNList => some (ACmdSend, [ACmdSupportedPGNList])           -- 166-168
  | .GetProductInfoN2K => some (ACmdSend, [ACmdProductInfoN2K])               -- 170-172
  | .GetCANConfig => some (ACmdSend, [ACmdCANConfig])                         -- 174-176
  | .SetCANConfig => some (ACmdSend, [ACmdCANConfig])                         -- 178-180
  | .GetCANInfoField1 => some (ACmdSend, [ACmdCANInfoField1])                 -- 182-184
  | .SetCANInfoField1 info =>                                                 -- 186-190
    some (ACmdSend, [ACmdCANInfoField1, UInt8.ofNat (info.length + 2), 1] ++ info)
  | .GetCANInfoField2 => some (ACmdSend, [ACmdCANInfoField2])                 -- 192-194
  | .SetCANInfoField2 info =>                                                 -- 196-200
    some (ACmdSend, [ACmdCANInfoField2, UInt8.ofNat (info.length + 2), 1] ++ info)
  | .GetCANInfoField3 => some (ACmdSend, [ACmdCANInfoField3])                 -- 202-204
  | .GetRxPGN pgn => some (ACmdSend, [ACmdRxPGNEnable] ++ intToBytes pgn)     -- 206-210
  | .SetRxPGN pgn enable =>                                                   -- 212-217
    some (ACmdSend, [ACmdRxPGNEnable] ++ intToBytes pgn ++ [byteOfInt enable])
  | .SetRxPGNEx _ _ _ => none                                                 -- 219-221
  | .GetTxPGN pgn => some (ACmdSend, [ACmdTxPGNEnable] ++ intToBytes pgn)     -- 223-227
  | .SetTxPGN pgn enable =>                                                   -- 229-234
    some (ACmdSend, [ACmdTxPGNEnable] ++ intToBytes pgn ++ [byteOfInt enable])
  | .SetTxPGNEx _ _ _ => none                                                 -- 236-238
  | .GetRxPGNList => some (ACmdSend, [ACmdRxPGNEnableList])                   -- 240-242
  | .GetTxPGNList => some (ACmdSend, [ACmdTxPGNEnableList])                   -- 244-246
  | .ClearRxPGNList => some (ACmdSend, [ACmdDeletePGNEnableList, RxPGNList])  -- 248-250
  | .ClearTxPGNList => some (ACmdSend, [ACmdDeletePGNEnableList, TxPGNList])  -- 252-254
  | .ActivatePGNEnableLists => some (ACmdSend, [ACmdActivatePGNEnableLists])  -- 256-258
  | .SetDefaultPGNEnableList id => some (ACmdSend, [ACmdDefaultPGNEnableList, id]) -- 260-262
  | .GetParamsPGNEnableLists => some (ACmdSend, [ACmdParamsPGNEnableLists])   -- 264-266

/-- Calling a command method: it writes one envelope and returns the port's result, or returns
`(-1, nil)` without writing. -/
def Cmd.run (c : Cmd) (p : Port) : (Int × Option Err) × Port :=
  match c.args with
  | some (command, payload) =>
    let ((n, e), p') := write p command payload
    ((n, e), p')
  | none => ((-1, none), p)

/-- `OpModeRxAll`, commands.go:77-80 (`iota + 1` starting at `OpModeFilter = 1`). -/
def OpModeRxAll : UInt16 := 2

/-- `OpenChannel`, actisense.go:51-68: `some` port or `none` (nil) with the error. -/
def OpenChannel (port : Port) : (Bool × Option Err) × Port :=
  let ((_, err), port) := (Cmd.SetOperatingMode OpModeRxAll).run port
  match err with
  | some e => ((false, some e), port)
  | none =>
    let ((_, err), port) := (Cmd.SetPortPCodes [0, 0, 0]).run port
    match err with
    | some e => ((false, some e), port)
    | none => ((true, none), port)

end Argo.Actisense
