import Verif.Go

set_option autoImplicit false

/-!
# Specification of the NGT-1 serial protocol

Written from the protocol description (comment in actisense.go:70-87 and the BST format), not from
the code: independent of `Verif.Actisense.Model`.
-/

namespace Argo.NgtSpec

/-- Escaping: every DLE (0x10) is doubled. -/
def escape (bs : List Byte) : List Byte :=
  bs.flatMap fun b => if b = 0x10 then [0x10, 0x10] else [b]

/-- Sum of bytes modulo 256. -/
def total : List Byte → Byte
  | [] => 0
  | b :: bs => b + total bs

/-- The documented transmit envelope `<DLE><STX><COMMAND><LEN><CMD DATA><CRC><DLE><ETX>`, with
only `<CMD DATA>` escaped. -/
def envelope (command len crc : Byte) (payload : List Byte) : List Byte :=
  [0x10, 0x02, command, len] ++ escape payload ++ [crc, 0x10, 0x03]

/-- A well-formed received frame: everything between `DLE STX` and `DLE ETX` is escaped. -/
def wire (content : List Byte) : List Byte :=
  [0x10, 0x02] ++ escape content ++ [0x10, 0x03]

/-- Fate of one unescaped frame. -/
inductive Verdict where
  /-- decodes to this message -/
  | accept (m : MsgView)
  /-- ignored -/
  | reject
  /-- the receiver indexes outside the frame -/
  | crash
  /-- declared length larger than the frame: outcome depends on memory layout -/
  | overrun
  deriving DecidableEq, Repr

/-- An N2K frame after the command byte 0x93:
`len prio pgn0 pgn1 pgn2 dst src t0 t1 t2 t3 n data.. crc`. -/
def n2kVerdict : List Byte → Verdict
  | [] => .crash
  | len :: rest =>
    if len.toNat < 11 then .reject else
    match rest with
    | prio :: p0 :: p1 :: p2 :: dst :: src :: _ :: _ :: _ :: _ :: n :: tail =>
      if n.toNat ≤ 223 ∧ n.toNat ≤ tail.length then
        .accept { priority := prio
                  pgn := p0.toNat + 256 * p1.toNat + 65536 * p2.toNat
                  source := src, destination := dst
                  length := n, data := tail.take n.toNat }
      else .reject
    | _ => .crash

/-- An NGT management frame after the command byte 0xA0: `len id data.. crc`, where `len` counts
the id and the data. -/
def ngtVerdict : List Byte → Verdict
  | len :: id :: tail =>
    if len.toNat < 12 then .reject
    else if len.toNat = 255 then .crash
    else if len.toNat - 1 ≤ tail.length then
      .accept { priority := 0, pgn := 0x40000 + id.toNat, source := 0, destination := 0
                length := UInt8.ofNat (len.toNat - 1), data := tail.take (len.toNat - 1) }
    else .overrun
  | _ => .crash

/-- Fate of the unescaped content of one frame. -/
def verdict (content : List Byte) : Verdict :=
  if content.length < 3 then .reject
  else if total content ≠ 0 then .reject
  else if content.head? = some 0x93 then n2kVerdict content.tail
  else if content.head? = some 0xA0 then ngtVerdict content.tail
  else .reject

end Argo.NgtSpec

namespace Argo.NgtSpec

/-- What the caller of `Read` sees. -/
inductive Seen where
  | msg (v : MsgView)
  | ioErr
  | crash
  deriving DecidableEq, Repr

/-- Phase of the receiver's framing: hunting for a frame, just after a DLE, or inside a frame. -/
inductive Phase where
  | hunt | esc | body
  deriving DecidableEq, Repr

/-- The framing layer alone: the unescaped contents a receiver delimits in a byte stream,
whatever their meaning.  `acc` is the content collected so far. -/
def deframe : Phase → List Byte → List Byte → List (List Byte)
  | _, _, [] => []
  | .hunt, acc, b :: bs => if b = 0x10 then deframe .esc acc bs else deframe .hunt acc bs
  | .body, acc, b :: bs => if b = 0x10 then deframe .esc acc bs else deframe .body (acc ++ [b]) bs
  | .esc, acc, b :: bs =>
    if b = 0x03 then acc :: deframe .hunt [] bs
    else if b = 0x02 then deframe .body acc bs
    else if b = 0x10 then deframe .body (acc ++ [b]) bs
    else deframe .hunt [] bs

/-- The contents delimited in a whole stream by a fresh receiver. -/
def frames (bs : List Byte) : List (List Byte) := deframe .hunt [] bs

/-- Possible observations when the receiver has delimited these contents: accepted ones are
reported, rejected ones leave no trace, a crashing one ends everything; for one that overruns, the
environment's memory layout decides between a message and a crash. -/
inductive Outcome : List (List Byte) → List Seen → Prop where
  | nil : Outcome [] []
  | accept {c cs v o} : verdict c = .accept v → Outcome cs o → Outcome (c :: cs) (.msg v :: o)
  | reject {c cs o} : verdict c = .reject → Outcome cs o → Outcome (c :: cs) o
  | crash {c cs} : verdict c = .crash → Outcome (c :: cs) [.crash]
  | overrunMsg {c cs o} (len id : Byte) (tail junk : List Byte) : verdict c = .overrun →
      c = 0xA0 :: len :: id :: tail → tail.length + junk.length + 1 = len.toNat → Outcome cs o →
      Outcome (c :: cs)
        (.msg { priority := 0, pgn := 0x40000 + id.toNat, source := 0, destination := 0
                length := UInt8.ofNat (len.toNat - 1), data := tail ++ junk } :: o)
  | overrunCrash {c cs} : verdict c = .overrun → Outcome (c :: cs) [.crash]

/-- The message of an acceptable frame content. -/
def accepted (content : List Byte) : Option MsgView :=
  match verdict content with
  | .accept v => some v
  | _ => none

/-- Little-endian value of a byte string. -/
def leValue : List Byte → Nat
  | [] => 0
  | b :: bs => b.toNat + 256 * leValue bs

end Argo.NgtSpec
