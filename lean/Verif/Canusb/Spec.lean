import Verif.Go

set_option autoImplicit false

/-!
# Specification of the CAN identifier, the Lawicel text format, fast packets and the ISO NAME

Independent of `Verif.Canusb.Model`.
-/

namespace Argo.CanSpec

/-- `c` is the ASCII hex digit (either case) for the value `v`. -/
def IsHexDigit (c : Byte) (v : Nat) : Prop :=
  (v < 10 ∧ c.toNat = 48 + v) ∨ (10 ≤ v ∧ v < 16 ∧ (c.toNat = 55 + v ∨ c.toNat = 87 + v))

/-- The digits `s`, most significant first, denote `n`. -/
inductive Hex : List Byte → Nat → Prop where
  | nil : Hex [] 0
  | snoc {s n c v} : Hex s n → IsHexDigit c v → Hex (s ++ [c]) (16 * n + v)

/-- Two digits per byte. -/
inductive HexBytes : List Byte → List Byte → Prop where
  | nil : HexBytes [] []
  | cons {a b v s d} : Hex [a, b] v → HexBytes s d → HexBytes (a :: b :: s) (UInt8.ofNat v :: d)

/-- A CAN frame as the adapter reports it: prefix, identifier (3 or 8 digits), one length digit
0..8, the data bytes, and a 4-character timestamp. -/
def Lawicel (p : List Byte) (id : Nat) (data : List Byte) : Prop :=
  ∃ pre idt l body ts,
    p = pre :: (idt ++ l :: (body ++ ts)) ∧
    (((pre = 't'.toUInt8 ∨ pre = 'r'.toUInt8) ∧ idt.length = 3) ∨
     ((pre = 'T'.toUInt8 ∨ pre = 'R'.toUInt8) ∧ idt.length = 8)) ∧
    Hex idt id ∧ IsHexDigit l data.length ∧ data.length ≤ 8 ∧ HexBytes body data ∧ ts.length = 4

/-- The J1939/NMEA 2000 meaning of an identifier: priority in bits 26 and up, extended data page
and data page in bits 25-24, PF 23-16, PS 15-8, source 7-0.  PF below 240: PS is the destination
and not part of the PGN; otherwise the message is broadcast. -/
def decoded (id : Nat) (data : List Byte) : MsgView :=
  let page := id / 2 ^ 24 % 4
  let pf := id / 2 ^ 16 % 256
  let ps := id / 2 ^ 8 % 256
  { priority := UInt8.ofNat (id / 2 ^ 26)
    source := UInt8.ofNat (id % 256)
    destination := if pf < 240 then UInt8.ofNat ps else 255
    pgn := if pf < 240 then page * 65536 + pf * 256 else page * 65536 + pf * 256 + ps
    length := UInt8.ofNat data.length
    data := data }

/-- The identifier of a message sent with these parameters. -/
def encodeId (prio : Nat) (pgn : Nat) (dst src : Byte) : Nat :=
  prio * 2 ^ 26 + (pgn / 256) * 2 ^ 16 + (if pgn / 256 % 256 < 240 then dst.toNat else pgn % 256) * 256
    + src.toNat

/-! ## Fast packets -/

/-- First data byte of a fast-packet frame: group number in the top three bits, frame number in the
low five. -/
def fpHeader (g k : Nat) : Byte := UInt8.ofNat (g % 8 * 32 + k % 32)

/-- Data fields of the frames after the first, each carrying `n` payload bytes (the last may carry
fewer), numbered from `k`. -/
def laterFields (n g k : Nat) (xs : List Byte) : List (List Byte) :=
  if xs = [] ∨ n = 0 then []
  else (fpHeader g k :: xs.take n) :: laterFields n g (k + 1) (xs.drop n)
  termination_by xs.length
  decreasing_by
    rename_i h
    have : xs ≠ [] := fun e => h (Or.inl e)
    have : 0 < xs.length := List.length_pos_iff.2 this
    have : n ≠ 0 := fun e => h (Or.inr e)
    simp only [List.length_drop]; omega

/-- Data fields of a fast packet: header, total size and 6 payload bytes in the first frame, header
and `n` payload bytes in each later one.  NMEA 2000 has `n = 7`. -/
def fastFields (n g : Nat) (payload : List Byte) : List (List Byte) :=
  (fpHeader g 0 :: UInt8.ofNat payload.length :: payload.take 6)
    :: laterFields n g 1 (payload.drop 6)

/-- `pad` appended to the last field. -/
def padLast (pad : List Byte) : List (List Byte) → List (List Byte)
  | [] => []
  | [f] => [f ++ pad]
  | f :: fs => f :: padLast pad fs

/-- `Chain g fs v k`: the frames `fs`, numbered 0..k, all of group `g` (modulo 4), of one PGN and
source, assemble to `v`, which has the header of the first frame, the announced length and the
concatenated payload bytes; it was incomplete before the last frame. -/
inductive Chain (g : Nat) : List MsgView → MsgView → Nat → Prop where
  | first {f : MsgView} {h n : Byte} {c : List Byte} :
      f.data = h :: n :: c → h.toNat % 32 = 0 → h.toNat / 32 % 4 = g →
      Chain g [f] { f with length := n, data := c } 0
  | next {fs : List MsgView} {v f : MsgView} {k : Nat} {h : Byte} {c : List Byte} :
      Chain g fs v k → v.data.length < v.length.toNat → f.pgn = v.pgn → f.source = v.source →
      f.data = h :: c → h.toNat % 32 = k + 1 → h.toNat / 32 % 4 = g →
      Chain g (fs ++ [f]) { v with data := v.data ++ c } (k + 1)

/-- Little-endian value of a byte string. -/
def leValue : List Byte → Nat
  | [] => 0
  | b :: bs => b.toNat + 256 * leValue bs

/-- The fields of a 64-bit ISO 11783 NAME. -/
structure Name where
  unique : Nat
  manufacturer : Nat
  instanceLow : Nat
  instanceHigh : Nat
  function : Nat
  cls : Nat
  systemInstance : Nat
  industry : Nat
  arbitrary : Nat
  deriving DecidableEq, Repr

/-- ISO 11783-5 layout: 21 bits unique number, 11 manufacturer, 3 ECU instance, 5 function
instance, 8 function, 1 reserved, 7 class, 4 class instance, 3 industry group, 1 arbitrary. -/
def nameOf (v : Nat) : Name :=
  { unique := v % 2 ^ 21
    manufacturer := v / 2 ^ 21 % 2 ^ 11
    instanceLow := v / 2 ^ 32 % 2 ^ 3
    instanceHigh := v / 2 ^ 35 % 2 ^ 5
    function := v / 2 ^ 40 % 2 ^ 8
    cls := v / 2 ^ 49 % 2 ^ 7
    systemInstance := v / 2 ^ 56 % 2 ^ 4
    industry := v / 2 ^ 60 % 2 ^ 3
    arbitrary := v / 2 ^ 63 }

end Argo.CanSpec
