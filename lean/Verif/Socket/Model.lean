import Verif.Go

set_option autoImplicit false

/-!
# Model of a write pump (main/websocket_server.go:79-107) and of the frames it writes

`WriteMessage` of a server is that of github.com/gorilla/websocket v1.2.0 (conn.go): without compression the message is one frame, whose
header is made by `flushFrame`; the payload beyond the write buffer is written from the caller's slice, so that the bytes are the same.
An error leaves an initial part of the frame written, and no later write happens.
-/

namespace Argo.Socket

open Argo

/-- `binary.BigEndian.PutUint16` and `PutUint64`: `w` bytes. -/
def putBig : Nat → Nat → List Byte
  | 0, _ => []
  | w + 1, n => putBig w (n / 256) ++ [UInt8.ofNat (n % 256)]

/-- gorilla/websocket: `flushFrame(true, …)` of a server. -/
def frame (opcode : Nat) (p : List Byte) : List Byte :=
  if 65536 ≤ p.length then UInt8.ofNat (128 + opcode) :: 127 :: (putBig 8 p.length ++ p)
  else if 125 < p.length then UInt8.ofNat (128 + opcode) :: 126 :: (putBig 2 p.length ++ p)
  else UInt8.ofNat (128 + opcode) :: UInt8.ofNat p.length :: p

/-- websocket_server.go:91-106: what the `select` of the loop finds. -/
inductive Wake where
  /-- line 92: a message -/
  | message (m : List Byte)
  /-- line 93: the channel is closed and empty -/
  | closed
  /-- line 100: the ticker -/
  | tick
  deriving DecidableEq, Repr

/-- One round of the loop.  `fault`: the write fails after so many bytes. -/
structure Turn where
  wake : Wake
  fault : Option Nat
  deriving DecidableEq, Repr

/-- websocket_server.go:94, 97, 101: the frame written. -/
def Wake.frame : Wake → List Byte
  | .message m => Socket.frame 1 m
  | .closed => Socket.frame 8 []
  | .tick => Socket.frame 9 []

/-- websocket_server.go:79-82: `write`; what gets written. -/
def Turn.written (t : Turn) : List Byte :=
  match t.fault with
  | none => t.wake.frame
  | some k => t.wake.frame.take k

/-- websocket_server.go:84-107 `writePump`: the bytes written to the connection. -/
def writePump : List Turn → List Byte
  | [] => []
  | t :: ts =>
    t.written ++
      match t.wake, t.fault with
      | .closed, _ => []
      | _, some _ => []
      | _, none => writePump ts

end Argo.Socket
