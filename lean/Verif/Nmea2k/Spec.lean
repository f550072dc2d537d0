import Verif.Nmea2k.Model

set_option autoImplicit false

/-!
# Specification vocabulary for package nmea2k

Independent of the model's extraction code: bits of a message, numbers formed by bits, two's
complement, static field positions and the intended value of a field.
-/

namespace Argo.Nmea2k.Spec

open Argo Argo.Nmea2k

/-- Bit `p` of a message: bit `p % 8` of byte `p / 8`, numbered from the least significant;
beyond the message, 0. -/
def bit (data : List Byte) (p : Nat) : Bool := (data.getD (p / 8) 0).toNat.testBit (p % 8)

/-- The number formed by the `n` bits of the message starting at bit `p`, least significant
first. -/
def bitsAt (data : List Byte) (p : Nat) : Nat → Nat
  | 0 => 0
  | n + 1 => (bit data p).toNat + 2 * bitsAt data (p + 1) n

/-- The two's-complement reading of an `n`-bit number. -/
def twos (n : Nat) (x : Nat) : Int := if x < 2 ^ (n - 1) then (x : Int) else (x : Int) - 2 ^ n

/-- The bytes `lo, lo+1, ..., lo+n-1` of the message that exist. -/
def bytesAt (data : List Byte) (lo n : Nat) : List Byte := (data.drop lo).take n

/-- Sum of the sizes of the fields before field `k`: its static bit position. -/
def position (fs : List Field) (k : Nat) : Nat := ((fs.take k).map (·.size)).sum

/-- Number of whole bytes a field of `size` bits spans. -/
def byteCount (size : Nat) : Nat := (size + 7) / 8

/-- A field of `size` bits at bit position `pos` reaches beyond the `byteCount size` bytes that
start with the byte containing its first bit. -/
def straddles (pos size : Nat) : Bool := decide (8 * byteCount size < pos % 8 + size)

/-- Number of bits of the field that lie in those bytes. -/
def readable (pos size : Nat) : Nat := min size (8 * byteCount size - pos % 8)

/-- Resolutions whose value is the raw integer. -/
def rawRes : Res → Bool
  | .one | .integer | .lookup | .manufacturer => true
  | _ => false

/-- The integer denoted by an `n`-bit pattern `x` of field `f`: two's complement of the next Go
integer width if the field is signed. -/
def fieldInt (f : Field) (x : Nat) : Int :=
  if f.signed then
    if f.size ≤ 8 then twos 8 x else if f.size ≤ 16 then twos 16 x
    else if f.size ≤ 32 then twos 32 x else twos 64 x
  else x

/-- The Go value of a numeric field with bit pattern `x`. -/
def numeric (f : Field) (x : Nat) : Val :=
  if rawRes f.res then
    if f.signed then
      .sint (if f.size ≤ 8 then 8 else if f.size ≤ 16 then 16 else if f.size ≤ 32 then 32 else 64)
        (fieldInt f x)
    else .u64 x
  else .f64 (fieldInt f x) f.res

/-- The prefix of `b` before the first 0 or 255. -/
def untilTerminator (b : List Byte) : List Byte := b.takeWhile (fun x => x ≠ 0 && x ≠ 255)

/-- The value of field `f` placed at bit `pos` of a message that covers it; `none` when the
decoder reports it as not present.  `RES_LOOKUP2` is not covered (see `C46`). -/
def fieldValue (env : Env) (data : List Byte) (f : Field) (pos : Nat) : Option Val :=
  let window := bytesAt data (pos / 8) (byteCount f.size)
  let x := bitsAt data pos (readable pos f.size)
  let number : Option Val := if byteCount f.size ≤ 8 then some (numeric f x) else none
  let u := bitsAt data (8 * (pos / 8)) (8 * byteCount f.size)
  match f.res with
  | .latitude | .longitude =>
    if byteCount f.size = 4 then
      if 0x7FFFFFFE ≤ u ∧ u ≤ 0x7FFFFFFF then none else some (.f32div (twos 32 u) (10 ^ 7))
    else if byteCount f.size = 8 then
      if 0x7FFFFFFFFFFFFFFE ≤ u ∧ u ≤ 0x7FFFFFFFFFFFFFFF then none
      else some (.f64div (twos 64 u) (10 ^ 16))
    else none
  | .date => if byteCount f.size = 2 ∧ u ≠ 0xFFFF then some (.unix (u * 86400 % 2 ^ 32)) else none
  | .time =>
    if byteCount f.size = 4 ∧ u ≠ 0xFFFFFFFF then
      some (.clock (u / 36000000) (u / 600000 % 60) (u / 10000 % 60) (u % 10000 * 10000))
    else none
  | .temperature => if byteCount f.size = 2 ∧ u < 0xFFFD then some (.f32div u 100) else none
  | .pressure => if byteCount f.size = 2 ∧ u < 0xFFFD then some (.f32div u 1000) else none
  | .sixBitAscii => none
  | .integer | .one | .scale _ => number
  | .lookup =>
    number.map fun v =>
      match f.units with
      | .lookup name => if env.lookup name x = "" then v else .text (env.lookup name x)
      | _ => v
  | .manufacturer => number.map fun v => if env.company x = "" then v else .text (env.company x)
  | .lookup2 => none
  | .stringLZ =>
    match data[pos / 8]? with
    | none => none
    | some l =>
      if l.toNat ≤ 1 ∨ data.length < pos / 8 + l.toNat then none
      else some (.chars (bytesAt data (pos / 8 + 1) (l.toNat - 1)))
  | .string => some (.chars window)
  | .ascii =>
    if data.length ≤ pos / 8 + byteCount f.size then none
    else if untilTerminator window = [] then none
    else some (.chars (untilTerminator window))
  | .binary | .float => some (.bytes window)
  | .notUsed => some .nil

/-- Which field of a definition with `n` fields, the last `r` of them repeating, the `k`-th entry of
a parsed message belongs to: fields 0..n-1 in order, then the last `r` over and over. -/
def entryField (n r k : Nat) : Nat := if r = 0 ∨ k < n then k else (n - r) + (k - n) % r

/-- The field of the `k`-th entry. -/
def entryOf (d : Pgn) (k : Nat) : Option Field :=
  d.fieldList[entryField d.fieldList.length d.repeatingFields k]?

/-- Bit position of the `k`-th entry: the sum of the sizes of the entries before it. -/
def entryPos (d : Pgn) : Nat → Nat
  | 0 => 0
  | k + 1 => entryPos d k + ((entryOf d k).map (·.size)).getD 0

/-- Entry `i` of the table is the only one with PGN `id`. -/
def onlyDefinition (tbl : List Pgn) (id i : Nat) (d : Pgn) : Prop :=
  tbl[i]? = some d ∧ d.pgn = id ∧ ∀ k q, tbl[k]? = some q → q.pgn = id → k = i

end Argo.Nmea2k.Spec
