import Verif.Go

set_option autoImplicit false

/-!
# WebSocket (RFC 6455), as a client reads it

An independent reader of the bytes a client receives after the handshake.  Nothing here refers to the server.
-/

namespace Argo.Socket

open Argo

/-- What a client takes notice of. -/
inductive Got where
  /-- a text message -/
  | text (m : List Byte)
  /-- a binary message -/
  | binary (m : List Byte)
  | ping (m : List Byte)
  | pong (m : List Byte)
  | close (m : List Byte)
  deriving DecidableEq, Repr

/-- Section 5.2. -/
structure Frame where
  fin : Bool
  opcode : Nat
  payload : List Byte
  deriving DecidableEq, Repr

/-- What the bytes that have arrived begin with. -/
inductive Start where
  /-- a part of a frame -/
  | more
  /-- no frame that a server may send -/
  | bad
  | frame (f : Frame) (rest : List Byte)
  deriving DecidableEq, Repr

/-- Network byte order. -/
def bigEndian (l : List Byte) : Nat := l.foldl (fun n b => 256 * n + b.toNat) 0

/-- The payload, of length `n`. -/
def payload (b0 : Byte) (n : Nat) (r : List Byte) : Start :=
  -- 5.5: control frames are short and not fragmented
  if 8 ≤ b0.toNat % 16 ∧ (125 < n ∨ b0.toNat < 128) then .bad
  else if r.length < n then .more
  else .frame ⟨decide (128 ≤ b0.toNat), b0.toNat % 16, r.take n⟩ (r.drop n)

/-- Section 5.2: the first frame. -/
def start : List Byte → Start
  | b0 :: b1 :: r =>
    -- the reserved bits: no extension was negotiated
    if b0.toNat / 16 % 8 ≠ 0 then .bad
    -- 5.1: a server does not mask
    else if 128 ≤ b1.toNat then .bad
    else if b1.toNat = 126 then
      if r.length < 2 then .more
      -- the minimal number of bytes must be used
      else if bigEndian (r.take 2) < 126 then .bad
      else payload b0 (bigEndian (r.take 2)) (r.drop 2)
    else if b1.toNat = 127 then
      if r.length < 8 then .more
      -- the most significant bit must be 0
      else if bigEndian (r.take 8) < 65536 ∨ 2 ^ 63 ≤ bigEndian (r.take 8) then .bad
      else payload b0 (bigEndian (r.take 8)) (r.drop 8)
    else payload b0 b1.toNat r
  | _ => .more

/-- Section 8.1: a text is UTF-8. -/
def isText (m : List Byte) : Bool := m.toByteArray.validateUTF8

/-- How the reading of what has arrived ends. -/
inductive End where
  /-- the connection is open -/
  | waiting
  /-- the client has seen a close frame -/
  | closed
  /-- the client fails the connection -/
  | failed
  deriving DecidableEq, Repr

/-- A whole message of the type that `opcode` says. -/
def message (opcode : Nat) (m : List Byte) : Option Got :=
  if opcode = 1 then if isText m then some (.text m) else none
  else if opcode = 2 then some (.binary m)
  else none

/-- Section 5.4: the client reads what has arrived.  `part` is the message whose fragments are being received, with its opcode.
The first argument bounds the number of frames; the number of bytes is enough. -/
def receive : Nat → Option (Nat × List Byte) → List Byte → List Got × End
  | 0, _, _ => ([], .waiting)
  | k + 1, part, b =>
    match start b with
    | .more => ([], .waiting)
    | .bad => ([], .failed)
    | .frame f rest =>
      if f.opcode = 8 then ([.close f.payload], .closed)
      else if f.opcode = 9 then
        let (g, e) := receive k part rest
        (.ping f.payload :: g, e)
      else if f.opcode = 10 then
        let (g, e) := receive k part rest
        (.pong f.payload :: g, e)
      else
        match part, f.opcode with
        | some (op, m), 0 =>
          if f.fin then
            match message op (m ++ f.payload) with
            | some g =>
              let (gs, e) := receive k none rest
              (g :: gs, e)
            | none => ([], .failed)
          else receive k (some (op, m ++ f.payload)) rest
        | none, op =>
          if f.fin then
            match message op f.payload with
            | some g =>
              let (gs, e) := receive k none rest
              (g :: gs, e)
            | none => ([], .failed)
          else if op = 1 ∨ op = 2 then receive k (some (op, f.payload)) rest
          else ([], .failed)
        | _, _ => ([], .failed)

/-- What the client makes of all bytes that have arrived since the handshake. -/
def client (b : List Byte) : List Got × End := receive (b.length + 1) none b

end Argo.Socket
