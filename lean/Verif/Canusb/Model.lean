import Verif.Go

set_option autoImplicit false

/-!
# Model of package `canusb`

Transcribed from /repo/canusb/canframe.go and /repo/canusb/canport.go, plus the read loop of
/repo/main/argo.go:272-282 that resolves address conflicts.  Receipt timestamps and error texts are
not modelled.  The package-level variables `partial_messages`, `fast_packets` and `group` are
explicit state; concurrent access to them by several ports (a data race in the code) is not modelled.
-/

namespace Argo.Canusb

/-! ## Fast-packet registry (canframe.go:42-72) -/

/-- `AddFastPacket`, canframe.go:46-58: the loop over `fast_packets`; inserting at index `i` with
`append`+`copy` shifts the tail right by one. -/
def AddFastPacket (pgn : Nat) : List Nat → List Nat
  | [] => [pgn]
  | v :: rest =>
    if pgn == v then v :: rest
    else if pgn < v then pgn :: v :: rest
    else v :: AddFastPacket pgn rest

/-- The binary search loop of `isFastPacket`, canframe.go:61-69, run for at most `fuel` rounds;
`fast_packets[h]` is in range because `i ≤ h < j ≤ len`. -/
def searchLoop (fp : List Nat) (pgn : Nat) : Nat → Nat → Nat → Nat
  | 0, i, _ => i
  | fuel + 1, i, j =>
    if i < j then
      let h := i + (j - i) / 2
      if !(fp.getD h 0 ≥ pgn) then searchLoop fp pgn fuel (h + 1) j
      else searchLoop fp pgn fuel i h
    else i

/-- `isFastPacket`, canframe.go:60-72.  `len+1` rounds always suffice for the loop. -/
def isFastPacket (fp : List Nat) (pgn : Nat) : Bool :=
  let i := searchLoop fp pgn (fp.length + 1) 0 fp.length
  i < fp.length && fp.getD i 0 == pgn

/-! ## Frames -/

/-- `msgType`, canframe.go:30-37. -/
inductive MsgType where
  | CAN_STD | CAN_EXT | CAN_STD_RTR | CAN_EXT_RTR
  deriving DecidableEq, Repr

/-- `CanFrame`, canframe.go:74-80, with the embedded `can.RawMessage` (can/can.go:29-46). -/
structure CanFrame where
  priority : Byte
  pgn : Nat
  source : Byte
  destination : Byte
  length : Byte
  data : List Byte
  msgType : MsgType
  id : Nat
  grp : Byte
  seq : Byte
  deriving DecidableEq, Repr

/-- Value of one digit as `strconv.ParseUint` with base 16 reads it (library function). -/
def hexDigit (c : Byte) : Option Nat :=
  if 48 ≤ c.toNat ∧ c.toNat ≤ 57 then some (c.toNat - 48)
  else if 97 ≤ c.toNat ∧ c.toNat ≤ 102 then some (c.toNat - 97 + 10)
  else if 65 ≤ c.toNat ∧ c.toNat ≤ 70 then some (c.toNat - 65 + 10)
  else none

/-- `strconv.ParseUint(s, 16, bits)` (library function) for texts short enough that the value
cannot exceed `bits` bits, which is the case at all three call sites (8 digits / 36 bits or 3 digits
/ 16 bits, 1 digit / 8 bits, 2 digits / 8 bits).  The empty text is an error. -/
def parseHex (s : List Byte) : Option Nat :=
  if s.isEmpty then none
  else s.foldlM (fun acc c => (hexDigit c).map (fun d => acc * 16 + d)) 0

/-- The data loop of `ParseFrame`, canframe.go:167-174, `n` rounds starting at index `i`. -/
def parseData (p : Slice) : Nat → Nat → List Byte → GoM (Except Err (List Byte))
  | 0, _, acc => .ok (.ok acc)
  | n + 1, i, acc => do
    let txt ← p.sub i (i + 2)
    match parseHex txt.vis with
    | some v => parseData p n (i + 2) (acc ++ [UInt8.ofNat v])
    | none => return .error (.msg "Unable to parse data")

/-- `ParseFrame`, canframe.go:95-178.  `data_len` is a signed Go `int`: `%` and `/` truncate. -/
def ParseFrame (p : Slice) : GoM (Except Err CanFrame) := do
  if p.len == 0 then return .error (.msg "empty byte array")
  let b0 ← p.get 0
  let hdr : Option (MsgType × Nat) :=
    if b0 == 116 then some (.CAN_STD, 4)            -- 't'
    else if b0 == 84 then some (.CAN_EXT, 9)        -- 'T'
    else if b0 == 114 then some (.CAN_STD_RTR, 4)   -- 'r'
    else if b0 == 82 then some (.CAN_EXT_RTR, 9)    -- 'R'
    else none
  match hdr with
  | none => return .error (.msg "Invalid prefix")
  | some (ty, offset) =>
    let idText ← p.sub 1 offset
    match parseHex idText.vis with
    | none => return .error (.msg "Unable to parse message ID")
    | some n =>
      let id := n % 2 ^ 32
      let pf := (id >>> 16) &&& 0xFF
      let ps := (id >>> 8) &&& 0xFF
      let destination : Byte := if pf ≥ 240 then 255 else UInt8.ofNat ps
      let pgn := if pf ≥ 240 then (id >>> 8) &&& 0x03FFFF else (id >>> 8) &&& 0x03FF00
      let c ← p.get offset
      match parseHex [c] with
      | none => return .error (.msg "Unable to parse message length")
      | some n =>
        if n ≤ 8 then
          let offset := offset + 1
          let rest ← p.from' offset
          let data_len : Int := (rest.len : Int) - 4
          if data_len.tmod 2 ≠ 0 ∨ data_len.tdiv 2 ≠ (n : Int) then
            return .error (.msg "Expected bytes")
          else
            match ← parseData p (data_len.toNat / 2) offset [] with
            | .error e => return .error e
            | .ok data =>
              return .ok { priority := UInt8.ofNat (id >>> 26), pgn := pgn,
                           source := UInt8.ofNat (id &&& 0xFF), destination := destination,
                           length := UInt8.ofNat n, data := data, msgType := ty, id := id,
                           grp := 0, seq := 0 }
        else return .error (.msg "Expected length <= 8")

/-! ## Reassembly -/

/-- `partial_messages`, canframe.go:39-40: a Go map from uid to frame. -/
abbrev Partials := Nat → Option CanFrame

/-- `partial_messages[uid] = f` (or `delete` with `none`). -/
def Partials.set (m : Partials) (uid : Nat) (f : Option CanFrame) : Partials :=
  fun k => if k = uid then f else m k

/-- `uid`, canport.go:315-317, in `uint32`. -/
def uidOf (grp : Byte) (pgn : Nat) (source : Byte) : Nat :=
  ((grp.toNat <<< 28) % 2 ^ 32 + (pgn <<< 8) % 2 ^ 32 + source.toNat) % 2 ^ 32

/-- The part of `frameReceived` after parsing, canport.go:310-347.  The result is a delivered frame
or the error "partial PGN" (`none`). -/
def reassemble (fp : List Nat) (m : Partials) (frame : CanFrame) :
    GoM (Option CanFrame × Partials) :=
  if isFastPacket fp frame.pgn then
    match frame.data with
    | [] => .error .index
    | d0 :: rest =>
      let frame : CanFrame := { frame with seq := d0 &&& 0x1F, grp := (d0 &&& 0x70) >>> 5 }
      let uid := uidOf frame.grp frame.pgn frame.source
      if frame.seq == 0 then
        match rest with
        | [] => .error .index
        | d1 :: data =>
          let frame : CanFrame := { frame with length := d1, data := data }
          if data.length ≥ d1.toNat then .ok (some frame, m.set uid none)
          else .ok (none, m.set uid (some frame))
      else
        match m uid with
        | some part =>
          if part.seq + 1 == frame.seq then
            let part : CanFrame := { part with data := part.data ++ rest, seq := frame.seq }
            if part.data.length ≥ part.length.toNat then .ok (some part, m.set uid none)
            else .ok (none, m.set uid (some part))
          else .ok (some frame, m)
        | none => .ok (some frame, m)
  else .ok (some frame, m)

/-- `frameReceived`, canport.go:286-348: `none` when an error is returned. -/
def frameReceived (fp : List Nat) (m : Partials) (msg : Slice) :
    GoM (Option CanFrame × Partials) := do
  match ← ParseFrame msg with
  | .error _ => return (none, m)
  | .ok frame => reassemble fp m frame

/-! ## Read -/

/-- The locals of `Read`, canport.go:132-134. -/
structure RState where
  rx : Byte
  msg : Slice
  sof : Bool

/-- Initial locals: `rxbuf := []byte{0}`, `msg := []byte{0}`, `sof := false`. -/
def RState.init : RState := ⟨0, ⟨[0], []⟩, false⟩

/-- canport.go:143: the frame-start characters `t T r R`. -/
def isStart (b : Byte) : Bool := b == 116 || b == 84 || b == 114 || b == 82

/-- canport.go:150-158: the message copied out of the frame. -/
def CanFrame.out (f : CanFrame) : MsgView :=
  { priority := f.priority, pgn := f.pgn, source := f.source, destination := f.destination,
    length := f.length, data := f.data }

/-- What processing one byte does. -/
inductive StepOut where
  | loop (s : RState) (m : Partials)
  | ret (v : MsgView) (m : Partials)
  | crash (e : Panic)

/-- The loop body, canport.go:142-163. -/
def byteStep (g : Nat → Nat) (fp : List Nat) (s : RState) (m : Partials) (b : Byte) : StepOut :=
  if isStart b then
    .loop { s with msg := Slice.nil.push g b, sof := true } m
  else if b == 13 && s.sof then
    match frameReceived fp m s.msg with
    | .error e => .crash e
    | .ok (some rec, m') => .ret rec.out m'
    | .ok (none, m') => .loop s m'
  else if s.sof then
    .loop { s with msg := s.msg.push g b } m
  else
    .loop s m

/-- What the caller of `Read` observes. -/
inductive Obs where
  | msg (v : MsgView)
  | ioErr
  | crash
  deriving DecidableEq, Repr

/-- Repeated `Read` calls on an open port (main/argo.go:272-282) over the port's outcomes,
canport.go:131-168.  A port error ends the current `Read`; the next one starts with new locals. -/
def session (g : Nat → Nat) (fp : List Nat) :
    RState → Partials → List Ev → List Obs × Option (RState × Partials)
  | s, m, [] => ([], some (s, m))
  | _, m, .fail :: evs =>
    let (o, f) := session g fp RState.init m evs
    (.ioErr :: o, f)
  | s, m, .byte b :: evs =>
    match byteStep g fp { s with rx := b } m b with
    | .loop s' m' => session g fp s' m' evs
    | .ret v m' =>
      let (o, f) := session g fp RState.init m' evs
      (.msg v :: o, f)
    | .crash _ => ([.crash], none)
  | s, m, .empty :: evs =>
    match byteStep g fp s m s.rx with
    | .loop s' m' => session g fp s' m' evs
    | .ret v m' =>
      let (o, f) := session g fp RState.init m' evs
      (.msg v :: o, f)
    | .crash _ => ([.crash], none)

/-- One call of `Read`, canport.go:131-168, on a port whose outcomes are `evs`: the result, the
outcomes not yet consumed and the new partials.  Result `none` means the call is still waiting. -/
inductive ReadResult where
  | msg (v : MsgView)
  | ioErr
  | closed
  | crash
  | waiting
  deriving DecidableEq, Repr

/-- The receive loop of one `Read` call. -/
def readLoop (g : Nat → Nat) (fp : List Nat) :
    RState → Partials → List Ev → ReadResult × List Ev × Partials
  | _, m, [] => (.waiting, [], m)
  | _, m, .fail :: evs => (.ioErr, evs, m)
  | s, m, .byte b :: evs =>
    match byteStep g fp { s with rx := b } m b with
    | .loop s' m' => readLoop g fp s' m' evs
    | .ret v m' => (.msg v, evs, m')
    | .crash _ => (.crash, evs, m)
  | s, m, .empty :: evs =>
    match byteStep g fp s m s.rx with
    | .loop s' m' => readLoop g fp s' m' evs
    | .ret v m' => (.msg v, evs, m')
    | .crash _ => (.crash, evs, m)

/-- `(*CanPort).Read`, canport.go:131-168. -/
def Read (g : Nat → Nat) (fp : List Nat) (isOpen : Bool) (m : Partials) (evs : List Ev) :
    ReadResult × List Ev × Partials :=
  if isOpen then readLoop g fp RState.init m evs else (.closed, evs, m)

/-! ## Write and Send -/

/-- One upper-case hex digit of `fmt`'s `%X` (library function). -/
def hexChar (d : Nat) : Byte := if d < 10 then UInt8.ofNat (48 + d) else UInt8.ofNat (55 + d)

/-- `fmt.Sprintf("%.2X", b)` for a byte. -/
def hex2 (b : Byte) : List Byte := [hexChar (b.toNat / 16), hexChar (b.toNat % 16)]

/-- `fmt.Sprintf("%.1X", n)` for a byte. -/
def hex1 (b : Byte) : List Byte := if b.toNat < 16 then [hexChar b.toNat] else hex2 b

/-- A `CanPort` (canport.go:32-36) together with the package variable `group` (canport.go:38). -/
structure CanPort where
  port : Port
  a : Byte
  isOpen : Bool
  group : Byte

/-- `(*CanPort).Write`, canport.go:174-206.  The result is the port's `(n, err)` (or the package
error), the new port state, and the caller's buffer, whose byte 3 `Write` may overwrite
(`pgn[2] = dst` aliases `b[3]`).  `pri<<2+pgn[0]&0x1` is `(pri<<2) + (pgn[0]&1)` in `uint8`. -/
def Write (p : CanPort) (b : Slice) : GoM ((Nat × Option Err) × CanPort × Slice) := do
  let pri ← b.get 0
  let pgn ← b.sub 1 4
  let dst ← b.get 4
  let len ← b.get 5
  let pld ← b.sub 6 (6 + len).toNat
  if len > 8 then
    return ((0, some (.msg "does not support long writes")), p, b)
  match pgn.vis with
  | [pgn0, pgn1, pgn2] =>
    let pgn2' := if pgn1 < 240 then dst else pgn2
    let b' : Slice := if pgn1 < 240 then { b with vis := b.vis.set 3 dst } else b
    let data : List Byte := [(84 : Byte)] ++ hex2 (pri <<< 2 + (pgn0 &&& 1)) ++ hex2 pgn1 ++ hex2 pgn2'
      ++ hex2 p.a ++ hex1 len ++ pld.vis.flatMap hex2 ++ [(13 : Byte)]
    let (r, port') := p.port.write data
    return (r, { p with port := port' }, b')
  | _ => .error .slice

/-- `copy(dst[at:], src)` keeping only the new `dst`. -/
def copyInto (dst : List Byte) (at' : Nat) (src : List Byte) : List Byte := (copyAt dst at' src).1

/-- The fast-packet loop of `Send`, canport.go:244-278.  Loop state: `i`, `seq`, `chunksize`, `tmp`,
`buf`, `total`.  At most `fuel` rounds; `none` = fuel exhausted (shown impossible for the fuel
`Send` supplies). -/
def sendLoop (data : List Byte) (grp : Byte) : Nat → CanPort → (i seq chunksize : Nat) →
    (tmp buf : List Byte) → (total : Nat) → GoM (Option ((Nat × Option Err) × CanPort))
  | 0, _, _, _, _, _, _, _ => .ok none
  | fuel + 1, p, i, seq, chunksize, tmp, buf, total =>
    if i < data.length then do
      let tmp ← setAt tmp 0 (UInt8.ofNat (seq &&& 0x1f) + (grp &&& 0x7) <<< 5)
      let seq := seq + 1
      let chunksize := if i == 1 then chunksize + 1 else chunksize
      let end' := i + chunksize
      let this := if end' > data.length then chunksize - (end' - data.length) else chunksize
      let end' := if end' > data.length then data.length else end'
      let chunk := (data.take end').drop i
      let tmp ← if i == 0 then setAt tmp 1 (UInt8.ofNat data.length) else .ok tmp
      let tmp := if i == 0 then copyInto tmp 2 chunk else copyInto tmp 1 chunk
      let k := if i == 0 then this + 2 else this + 1
      let buf := copyInto buf 6 (tmp.take k)
      let buf ← setAt buf 5 (UInt8.ofNat k)
      let ((n, err), p, b') ← Write p ⟨buf, []⟩
      match err with
      | some e => return some ((n, some e), p)
      | none => sendLoop data grp fuel p (i + chunksize) seq chunksize tmp b'.vis (total + n)
    else .ok (some ((total, none), p))

/-- `(*CanPort).Send`, canport.go:210-284. -/
def Send (p : CanPort) (frame : RawMessage) : GoM ((Nat × Option Err) × CanPort) := do
  let buf := List.replicate 14 (0 : Byte)
  let buf ← setAt buf 0 frame.priority
  let buf ← setAt buf 1 (UInt8.ofNat ((frame.pgn &&& 0xf0000) >>> 16))
  let buf ← setAt buf 2 (UInt8.ofNat ((frame.pgn &&& 0xff00) >>> 8))
  let buf ← setAt buf 3 (UInt8.ofNat frame.pgn)
  let buf ← setAt buf 4 frame.destination
  let data := frame.data.vis
  let dataLen := data.length
  if dataLen ≤ 8 then
    let buf ← setAt buf 5 frame.length
    let (buf, n) := copyAt buf 6 data
    if n < frame.length.toNat then
      return ((n, some (.msg "not enough space for data")), p)
    let (r, p, _) ← Write p ⟨buf, []⟩
    return (r, p)
  if dataLen > 8 ∧ dataLen ≤ 223 then
    let grp := p.group
    let p := { p with group := p.group + 1 }
    match ← sendLoop data grp (dataLen + 1) p 0 0 6 (List.replicate 8 0) buf 0 with
    | some r => return r
    | none => return ((0, none), p)
  return ((0, some (.msg "cannot send data larger than fast packets")), p)

/-! ## Address claim, open, close -/

/-- `binary.LittleEndian.PutUint32` (library function). -/
def putUint32 (v : Nat) : List Byte :=
  [UInt8.ofNat v, UInt8.ofNat (v >>> 8), UInt8.ofNat (v >>> 16), UInt8.ofNat (v >>> 24)]

/-- The NAME built by `AddressClaim`, canport.go:42-67; `i0`, `i1` are `uint32`. -/
def claimData : List Byte :=
  let i0 : Nat := 0x1fffff
  let i0 := (i0 + (100 <<< 21) % 2 ^ 32) % 2 ^ 32
  let i1 : Nat := 0
  let i1 := (i1 + (0 <<< 3) % 2 ^ 32) % 2 ^ 32
  let i1 := (i1 + (25 <<< 8) % 2 ^ 32) % 2 ^ 32
  let i1 := (i1 + (25 <<< 17) % 2 ^ 32) % 2 ^ 32
  let i1 := (i1 + (0 <<< 24) % 2 ^ 32) % 2 ^ 32
  let i1 := (i1 + (4 <<< 28) % 2 ^ 32) % 2 ^ 32
  let i1 := (i1 + (1 <<< 31) % 2 ^ 32) % 2 ^ 32
  putUint32 i0 ++ putUint32 i1

/-- The message built by `AddressClaim`, canport.go:69-77. -/
def claimMessage : RawMessage :=
  { priority := 2, source := 221, destination := 225, pgn := 60928, length := 8,
    data := ⟨claimData, []⟩ }

/-- `AddressClaim`, canport.go:41-83: sets the port's address, sends the claim, ignores the result
of `Send`. -/
def AddressClaim (p : CanPort) (preferredAddress : Byte) : GoM (Byte × CanPort) := do
  let (_, p) ← Send { p with a := preferredAddress } claimMessage
  return (preferredAddress, p)

/-- `OpenChannel`, canport.go:89-117: `none` is a nil port.  The deferred `CloseChannel` never runs:
`err` and a non-nil `p` do not occur together. -/
def OpenChannel (port : Port) (group : Byte) (address : Byte) :
    GoM ((Option CanPort × Option Err) × Port) := do
  let ((_, err), port) := port.write [83, 53, 13]     -- "S5\r"
  match err with
  | some e => return ((none, some e), port)
  | none =>
    let ((_, err), port) := port.write [79, 13]       -- "O\r"
    match err with
    | some e => return ((none, some e), port)
    | none =>
      let p : CanPort := { port := port, a := 0, isOpen := false, group := group }
      let (a, p) ← AddressClaim p address
      let p := { p with a := a, isOpen := true }
      return ((some p, none), p.port)

/-- `CloseChannel`, canport.go:123-129: the result carries whether `p.p.Close()` was reached.
`[]byte("C\r")` has length 2; its capacity (`spare`) is up to the compiler. -/
def CloseChannel (spare : List Byte) (p : CanPort) : GoM (Option Err × Bool) := do
  let ((_, err), _, _) ← Write p ⟨[67, 13], spare⟩
  return (err, true)

/-- One message read in the canusb loop of `processInterface`, main/argo.go:273-278: the conflict
check, then the message is passed on. -/
def conflictStep (p : CanPort) (raw : MsgView) : GoM CanPort :=
  if raw.pgn == 60928 && raw.source == p.a then do
    let (_, p) ← AddressClaim p (p.a + 1)
    return p
  else .ok p

/-- The loop over all messages read. -/
def conflictLoop : CanPort → List MsgView → GoM CanPort
  | p, [] => .ok p
  | p, m :: ms => do conflictLoop (← conflictStep p m) ms

end Argo.Canusb
