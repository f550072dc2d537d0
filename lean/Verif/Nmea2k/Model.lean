import Verif.Go

set_option autoImplicit false

/-!
# Model of package nmea2k

`nmea2k/pgn_array.go` (types, First, Last), `nmea2k/raw_message.go` (field extraction and
ParsePacket) and `nmea2k/parsed_message.go` (FromCanBoat, Print, MarshalJSON).

Conventions
* `uint32`/`int` counters are natural numbers (no overflow below 2^32 bytes of data).
* `uint64` values are natural numbers below 2^64.
* floating-point results are symbolic: the exact integer and the factor or divisor applied.
* strings built from message bytes are byte lists; strings found in lookup tables are `String`.
* the contents of the lookup maps (lookups.go) are a parameter `Env`.
-/

namespace Argo.Nmea2k

open Argo

/-- `Field.Resolution` (pgn_array.go:38-56, 61): the negative codes, 0, exactly 1, and every
other positive factor, kept as the text of its Go constant expression. -/
inductive Res where
  | ascii | latitude | longitude | date | time | temperature | sixBitAscii | integer
  | lookup | lookup2 | binary | manufacturer | string | float | pressure | stringLZ
  /-- `0` -/
  | notUsed
  /-- `1` -/
  | one
  /-- any other positive factor -/
  | scale (s : String)
  deriving DecidableEq, Repr

/-- `Field.Units` (an `interface{}`, pgn_array.go:63).  A Go string is split by its first byte:
`"=..."` becomes `must n` with `n` the value `strconv.ParseUint(v[1:], 10, 64)` yields. -/
inductive Units where
  | nil
  /-- an integer constant -/
  | int (n : Int)
  /-- the empty string (indexing its first byte panics) -/
  | empty
  /-- a non-empty string not starting with '=' -/
  | text (s : String)
  /-- a string "=n" -/
  | must (n : Nat)
  /-- a `PgnLookup` map, by name -/
  | lookup (name : String)
  /-- a `PgnSubLookup` map, by name -/
  | subLookup (name : String)
  deriving DecidableEq, Repr

/-- pgn_array.go:58-67 `Field`. -/
structure Field where
  name : String
  size : Nat
  res : Res
  signed : Bool
  units : Units
  description : String
  signalkPath : String
  offset : Int
  deriving DecidableEq, Repr

/-- pgn_array.go:69-77 `Pgn`. -/
structure Pgn where
  description : String
  category : String
  pgn : Nat
  isKnown : Bool
  size : Nat
  repeatingFields : Nat
  fieldList : List Field
  deriving DecidableEq, Repr

/-- Values stored in `ParsedMessage.Data`. -/
inductive Val where
  /-- Go `nil` -/
  | nil
  /-- `uint64` -/
  | u64 (n : Nat)
  /-- `int8`/`int16`/`int32`/`int64` (width `w`) -/
  | sint (w : Nat) (n : Int)
  /-- `float64(n) * float64(res)` -/
  | f64 (n : Int) (r : Res)
  /-- `float32(n) / d` -/
  | f32div (n : Int) (d : Nat)
  /-- `float64(n) / d` -/
  | f64div (n : Int) (d : Nat)
  /-- `time.Unix(s, 0)` -/
  | unix (s : Nat)
  /-- `time.Date(1970, January, 1, h, m, s, ns, Local)` -/
  | clock (h m s ns : Nat)
  /-- a string found in a lookup map -/
  | text (s : String)
  /-- a string made of message bytes -/
  | chars (b : List Byte)
  /-- a `[]byte` of message bytes -/
  | bytes (b : List Byte)
  deriving DecidableEq, Repr

/-- The lookup maps of lookups.go.  An absent key yields the empty string, as in Go. -/
structure Env where
  /-- `PgnLookup` maps by name -/
  lookup : String → Nat → String
  /-- `lookupCompanyCode` -/
  company : Nat → String
  /-- `PgnSubLookup` maps by name, indexed with the raw numbers of the two fields (the float
  products and conversions of raw_message.go:148-157,524 are folded into this function) -/
  sub : String → Nat → Nat → String

/-- A Go `(value, error)` result: `none` is a non-nil error. -/
abbrev Res? := Option

/-! ## Table lookup -/

/-- pgn_array.go:3310-3318 `First`, the loop from index `i` on. -/
def firstFrom (id : Nat) : Nat → List Pgn → Option (Nat × Pgn)
  | _, [] => none
  | i, p :: ps => if id = p.pgn then some (i, p) else firstFrom id (i + 1) ps

/-- pgn_array.go:3310-3318 `First`. -/
def first (pp : List Pgn) (id : Nat) : GoM (Nat × Pgn) :=
  match firstFrom id 0 pp with
  | some r => .ok r
  | none =>
    match pp with
    | p :: _ => .ok (0, p)
    | [] => .error .index

/-- pgn_array.go:3320-3328 `Last`, the loop from index `n-1` down to 0. -/
def lastFrom (pp : List Pgn) (id : Nat) : Nat → Option (Nat × Pgn)
  | 0 => none
  | n + 1 =>
    match pp[n]? with
    | some p => if id = p.pgn then some (n, p) else lastFrom pp id n
    | none => lastFrom pp id n

/-- pgn_array.go:3320-3328 `Last`. -/
def last (pp : List Pgn) (id : Nat) : GoM (Nat × Pgn) :=
  match lastFrom pp id pp.length with
  | some r => .ok r
  | none =>
    match pp with
    | p :: _ => .ok (0, p)
    | [] => .error .index

/-- raw_message.go:61-79 `FieldOffsets`: the summation loop over the fields before `idx`. -/
def offsetOf : List Field → Nat → Nat
  | [], _ => 0
  | _ :: _, 0 => 0
  | f :: fs, i + 1 => f.size + offsetOf fs i

/-- Go `l[i]` with an `int` index. -/
def goIndex {α : Type} (l : List α) (i : Int) : GoM α :=
  if 0 ≤ i then
    match l[i.toNat]? with
    | some a => .ok a
    | none => .error .index
  else .error .index

/-- raw_message.go:61-79 `FieldOffsets`; returns (low_byte, high_byte, start_bit, bits). -/
def fieldOffsets (p : Pgn) (idx : Int) : GoM (Nat × Nat × Nat × Nat) := do
  let f ← goIndex p.fieldList idx
  let bytes := (f.size + 7) / 8
  let bits := min (bytes * 8) f.size
  let offset := offsetOf p.fieldList idx.toNat
  return (offset / 8, offset / 8 + bytes, offset % 8, bits)

/-! ## Field extraction -/

/-- Little-endian value of a byte list: `binary.LittleEndian.Uint64` and the `value |= b << 8*i`
loops. -/
def leNat : List Byte → Nat
  | [] => 0
  | b :: bs => b.toNat + 256 * leNat bs

/-- Go conversion of an unsigned value to a signed integer type of `w` bits. -/
def toSigned (w : Nat) (n : Nat) : Int :=
  let r := n % 2 ^ w
  if r < 2 ^ (w - 1) then (r : Int) else (r : Int) - 2 ^ w

/-- raw_message.go:216-251 `extractLatLon`. -/
def extractLatLon (m : RawMessage) (start stop : Nat) : GoM (Res? Val) := do
  let data ← m.data.sub start stop
  if data.vis.length = 4 then
    let value := toSigned 32 (leNat data.vis)
    if value > 0x7FFFFFFD then return none
    else return some (.f32div value (10 ^ 7))
  else if data.vis.length = 8 then
    let value := toSigned 64 (leNat data.vis)
    if value > 0x7FFFFFFFFFFFFFFD then return none
    else return some (.f64div value (10 ^ 16))
  else return none

/-- raw_message.go:254-271 `extractDate`; `d*86400` is computed in `uint32`. -/
def extractDate (m : RawMessage) (start stop : Nat) : GoM (Res? Val) := do
  let data ← m.data.sub start stop
  if data.vis.length ≠ 2 then return none
  else
    let d := leNat data.vis
    if d = 0xFFFF then return none
    else return some (.unix (d * 86400 % 2 ^ 32))

/-- raw_message.go:273-300 `extractTime`. -/
def extractTime (m : RawMessage) (start stop : Nat) : GoM (Res? Val) := do
  let data ← m.data.sub start stop
  if data.vis.length ≠ 4 then return none
  else
    let d := leNat data.vis
    if d = 0xFFFFFFFF then return none
    else
      let seconds := d / 10000
      let units := d % 10000
      let minutes := seconds / 60
      let seconds := seconds % 60
      let hours := minutes / 60
      let minutes := minutes % 60
      return some (.clock hours minutes seconds (units * 10000))

/-- raw_message.go:304-324 `extractTemperature` (`div` = 100) and 337-357 `extractPressure`
(`div` = 1000). -/
def extractScaled16 (div : Nat) (m : RawMessage) (start stop : Nat) : GoM (Res? Val) := do
  let data ← m.data.sub start stop
  if data.vis.length ≠ 2 then return none
  else
    let d := leNat data.vis
    if d ≥ 0xfffd then return none
    else return some (.f32div d div)

/-- raw_message.go:326-334 `extract6BitASCII`: always an error. -/
def extract6BitASCII (m : RawMessage) (start stop : Nat) : GoM (Res? Val) := do
  let _ ← m.data.sub start stop
  return none

/-- raw_message.go:359-387 `extractStringLZ`; `end` is a `byte` and wraps. -/
def extractStringLZ (m : RawMessage) (start : Nat) : GoM (Res? Val) := do
  if start ≥ m.data.len then return none
  else
    let e ← m.data.get start
    if e = 0 then return none
    else
      let stop : Byte := e + UInt8.ofNat start
      if stop.toNat > m.data.len then return none
      else
        let data ← m.data.sub (start + 1) stop.toNat
        if data.vis.length = 0 then return none
        else return some (.chars data.vis)

/-- raw_message.go:401-406: the scan for a terminator, from index `i` over `n` more bytes;
returns the index where it stops. -/
def scanString (m : RawMessage) : Nat → Nat → GoM Nat
  | i, 0 => .ok i
  | i, n + 1 => do
    let b ← m.data.get i
    if b = 0 ∨ b = 255 then return i
    else scanString m (i + 1) n

/-- raw_message.go:389-418 `extractString`. -/
def extractString (m : RawMessage) (start stop : Nat) : GoM (Res? Val) := do
  if start ≥ m.data.len ∨ stop ≥ m.data.len then return none
  else
    let b ← m.data.get start
    if b = 0 then return none
    else
      let i ← scanString m start (stop - start)
      let data ← m.data.sub start i
      if data.vis.length = 0 then return none
      else return some (.chars data.vis)

/-- `^uint64(0) >> uint64(64-width)` with `64-width` computed in `uint32`
(raw_message.go:432). -/
def maskOf (width : Nat) : Nat := (2 ^ 64 - 1) / 2 ^ ((64 + 2 ^ 32 - width) % 2 ^ 32)

/-- The Go conversions of raw_message.go:461-489: width of the signed type by `field.Size`. -/
def signedWidth (size : Nat) : Nat :=
  if size ≤ 8 then 8 else if size ≤ 16 then 16 else if size ≤ 32 then 32 else 64

/-- Resolutions for which `extractNumber` returns an integer (raw_message.go:461). -/
def Res.isRaw : Res → Bool
  | .one | .lookup | .manufacturer | .integer => true
  | _ => false

/-- raw_message.go:461-489: conversion of the extracted bits to the result value. -/
def numberValue (field : Field) (num : Nat) : Val :=
  if field.res.isRaw then
    if field.signed then .sint (signedWidth field.size) (toSigned (signedWidth field.size) num)
    else .u64 num
  else
    if field.signed then .f64 (toSigned (signedWidth field.size) num) field.res
    else .f64 num field.res

/-- raw_message.go:420-492 `extractNumber`.  The uint64 arithmetic is on naturals below 2^64. -/
def extractNumber (m : RawMessage) (field : Field) (start stop offset width : Nat) :
    GoM (Res? Val) := do
  if stop - start > 8 then
    let _ ← m.data.sub start stop
    return none
  else
    let src ← m.data.sub start stop
    let data := src.vis.take 8 ++ List.replicate (8 - src.vis.length) 0
    let num := leNat data
    let num := num / 2 ^ offset
    let num := num &&& maskOf width
    if (2 ^ width % 2 ^ 64) &&& num ≠ 0 then return none
    else return some (numberValue field num)

/-- raw_message.go:494-515 `extractLookupField`. -/
def extractLookupField (env : Env) (m : RawMessage) (f : Field) (start stop bit bits : Nat) :
    GoM (Res? Val) := do
  match ← extractNumber m f start stop bit bits with
  | none => return none
  | some n =>
    match f.units with
    | .lookup name =>
      match n with
      | .u64 k => if env.lookup name k = "" then return some n else return some (.text (env.lookup name k))
      | _ => .error .typeAssert
    | _ => return some n

/-- raw_message.go:517-531 `extractLookupSubfield`. -/
def extractLookupSubfield (env : Env) (m : RawMessage) (f : Field) (superNum : Nat)
    (start stop bit bits : Nat) : GoM (Res? Val) := do
  match ← extractNumber m f start stop bit bits with
  | none => return none
  | some n =>
    match f.units with
    | .subLookup name =>
      match n with
      | .f64 k _ => return some (.text (env.sub name superNum k.toNat))
      | _ => .error .typeAssert
    | _ => return some n

/-- raw_message.go:533-550 `extractManufacturer`. -/
def extractManufacturer (env : Env) (m : RawMessage) (f : Field) (start stop bit bits : Nat) :
    GoM (Res? Val) := do
  match ← extractNumber m f start stop bit bits with
  | none => return none
  | some n =>
    match n with
    | .u64 k => if env.company k = "" then return some n else return some (.text (env.company k))
    | _ => .error .typeAssert

/-! ## ParsePacket -/

/-- `pgnParsed.Data`: a Go map from `int`. -/
abbrev DataMap := List (Nat × Val)

/-- Map read: `nil` when absent. -/
def DataMap.get (d : DataMap) (k : Nat) : Val :=
  match d.find? (fun e => e.1 = k) with
  | some e => e.2
  | none => .nil

/-- Map write. -/
def DataMap.set (d : DataMap) (k : Nat) (v : Val) : DataMap :=
  if d.any (fun e => e.1 = k) then d.map (fun e => if e.1 = k then (k, v) else e)
  else d ++ [(k, v)]

/-- raw_message.go:144-157, the `RES_LOOKUP2` case. -/
def extractLookup2 (env : Env) (m : RawMessage) (d : Pgn) (dm : DataMap) (field : Field)
    (sb stop bit bits : Nat) : GoM (Res? Val) := do
  let superVal := if 0 ≤ field.offset then dm.get field.offset.toNat else Val.nil
  match superVal with
  | .nil =>
    let (lo, hi, sbit, sbits) ← fieldOffsets d field.offset
    match ← extractNumber m field lo hi sbit sbits with
    | none => return none
    | some (.f64 k _) => extractLookupSubfield env m field k.toNat sb stop bit bits
    | some _ => .error .typeAssert
  -- `data = uint32(...)` followed by `data.(float64)`, or a failed `superFieldVal.(float64)`
  | _ => .error .typeAssert

/-- raw_message.go:125-173: the value of one field; `none` is `err != nil`. -/
def decodeField (env : Env) (m : RawMessage) (d : Pgn) (dm : DataMap) (field : Field)
    (sb stop bit bits : Nat) : GoM (Res? Val) :=
  match field.res with
  | .latitude | .longitude => extractLatLon m sb stop
  | .date => extractDate m sb stop
  | .time => extractTime m sb stop
  | .temperature => extractScaled16 100 m sb stop
  | .sixBitAscii => extract6BitASCII m sb stop
  | .integer => extractNumber m field sb stop bit bits
  | .lookup => extractLookupField env m field sb stop bit bits
  | .lookup2 => extractLookup2 env m d dm field sb stop bit bits
  | .manufacturer => extractManufacturer env m field sb stop bit bits
  | .pressure => extractScaled16 1000 m sb stop
  | .stringLZ => extractStringLZ m sb
  | .string => do return some (.chars (← m.data.sub sb stop).vis)
  | .ascii => extractString m sb stop
  | .binary | .float => do return some (.bytes (← m.data.sub sb stop).vis)
  | .notUsed => .ok (some .nil)
  | .one | .scale _ => extractNumber m field sb stop bit bits

/-- raw_message.go:180-182: a manufacturer field is compared by its number, not its name; the
error is ignored. -/
def variantData (m : RawMessage) (res : Res) (field : Field) (sb stop bit bits : Nat) (data : Val) :
    GoM Val :=
  if res = .manufacturer then do
    let r ← extractNumber m field sb stop bit bits
    return r.getD .nil
  else .ok data

/-- raw_message.go:178-198: the search for a matching definition while parsing field `idx`.
`fuel` is the number of remaining values `i ≤ j`. `res` is the resolution of the field as first
decoded. Returns the definition index, the definition and its index. -/
def variantLoop (tbl : List Pgn) (m : RawMessage) (res : Res) (idx : Int)
    (sb stop bit bits : Nat) : (fuel : Nat) → (i : Nat) → (d : Pgn) → (field : Field) →
    (data : Val) → GoM (Nat × Pgn)
  | 0, i, d, _, _ => .ok (i, d)
  | fuel + 1, i, d, field, data => do
    let data ← variantData m res field sb stop bit bits data
    match field.units with
    | .empty => .error .index
    | .must value =>
      match data with
      | .u64 n =>
        if value = n then return (i, d)
        else do
          let d' ← goIndex tbl ((i : Int) + 1)
          let field' ← goIndex d'.fieldList idx
          variantLoop tbl m res idx sb stop bit bits fuel (i + 1) d' field' data
      | _ => .error .typeAssert
    | _ => return (i, d)

/-- The variables of the loop of `ParsePacket` (raw_message.go:84-105). -/
structure St where
  /-- `i` -/
  i : Nat
  /-- `pgnDefinition` (and `fields`, its field list) -/
  d : Pgn
  /-- `idx` -/
  idx : Int
  /-- `odx` -/
  odx : Nat
  /-- `start_byte` -/
  sb : Nat
  /-- `start_bit` -/
  bit : Nat
  /-- `pgnParsed.Index` -/
  index : Nat
  /-- `pgnParsed.Data` -/
  data : DataMap
  deriving Repr

/-- `ParsedMessage` (parsed_message.go:46-50). -/
structure Parsed where
  header : RawMessage
  index : Nat
  data : DataMap
  deriving Repr, DecidableEq

/-- raw_message.go:175-202: after decoding a field, keep the definition or search for another one;
returns the new `i`, `pgnDefinition` and `pgnParsed.Index`. -/
def selectVariant (tbl : List Pgn) (m : RawMessage) (j : Nat) (oneSolution : Bool) (s : St)
    (field : Field) (stop bits : Nat) (r : Res? Val) : GoM (Nat × Pgn × Nat) :=
  match r with
  | some v =>
    if oneSolution then .ok (s.i, s.d, s.index)
    else do
      let (i', d') ← variantLoop tbl m field.res s.idx s.sb stop s.bit bits
        (j + 1 - s.i) s.i s.d field v
      return (i', d', i')
  | none => .ok (s.i, s.d, s.index)

/-- One iteration of the loop of `ParsePacket` (raw_message.go:105-211): `inl` continues,
`inr` returns. -/
def step (tbl : List Pgn) (env : Env) (m : RawMessage) (j : Nat) (oneSolution : Bool) (s : St) :
    GoM (St ⊕ Parsed) := do
  if ¬ s.idx < s.d.fieldList.length then return .inr ⟨m, s.index, s.data⟩
  else
    let field ← goIndex s.d.fieldList s.idx
    let bytes := min ((field.size + 7) / 8) m.data.len
    let bits := min (bytes * 8) field.size
    let stop := bytes + s.sb
    if s.sb > m.data.len ∨ stop > m.data.len then return .inr ⟨m, s.index, s.data⟩
    else
      let r ← decodeField env m s.d s.data field s.sb stop s.bit bits
      let (i', d', index') ← selectVariant tbl m j oneSolution s field stop bits r
      let data' := s.data.set s.odx (r.getD .nil)
      let sb' := s.sb + (bits + s.bit) / 8
      let bit' := (s.bit + bits) % 8
      let idx' :=
        if s.idx = (d'.fieldList.length : Int) - 1 ∧ 0 < d'.repeatingFields ∧ sb' < m.data.len
        then s.idx - d'.repeatingFields else s.idx
      return .inl ⟨i', d', idx' + 1, s.odx + 1, sb', bit', index', data'⟩

/-- The loop, at most `n` iterations; `none` when not finished. -/
def run (tbl : List Pgn) (env : Env) (m : RawMessage) (j : Nat) (oneSolution : Bool) :
    Nat → St → Option (GoM Parsed)
  | 0, _ => none
  | n + 1, s =>
    match step tbl env m j oneSolution s with
    | .error e => some (.error e)
    | .ok (.inr p) => some (.ok p)
    | .ok (.inl s') => run tbl env m j oneSolution n s'

/-- raw_message.go:81-214 `ParsePacket`, observed for `n` iterations of its loop: `none` when it
has not returned by then.  `tbl` is the global `PgnList`. -/
def parsePacketN (tbl : List Pgn) (env : Env) (m : RawMessage) (n : Nat) : Option (GoM Parsed) :=
  match first tbl m.pgn, last tbl m.pgn with
  | .ok (i, d), .ok (j, _) =>
    run tbl env m j (i == j) n ⟨i, d, 0, 0, 0, 0, i, []⟩
  | .error e, _ => some (.error e)
  | _, .error e => some (.error e)

/-- `ParsePacket` finishes with the outcome `r` (a value or a panic). -/
def ParsePacket (tbl : List Pgn) (env : Env) (m : RawMessage) (r : GoM Parsed) : Prop :=
  ∃ n, parsePacketN tbl env m n = some r

/-- raw_message.go:552-555 `GetPgnDefinition`; the argument is ignored by the code. -/
def getPgnDefinition (tbl : List Pgn) (m : RawMessage) (_pgn : Nat) : GoM Pgn := do
  let (_, p) ← first tbl m.pgn
  return p

/-! ## parsed_message.go -/

/-- One line of `Print`'s output: entry number, field name, value (`nil` when absent). -/
abbrev Line := Nat × String × Val

/-- parsed_message.go:108-125, the loop of `Print` over entries `i .. i+n-1`.  The texts of the
values are modelled in `Log/Model.lean` (`printText`); `verbose` decides whether nil entries are listed. -/
def printLoop (pp : Pgn) (dm : DataMap) (verbose : Bool) : Nat → Nat → Int → GoM (List Line)
  | 0, _, _ => .ok []
  | n + 1, i, j => do
    let v := dm.get i
    let here ←
      if v ≠ .nil ∨ verbose then do
        let f ← goIndex pp.fieldList j
        pure [(i, f.name, v)]
      else pure []
    let j' := if 0 < pp.repeatingFields ∧ j = (pp.fieldList.length : Int) - 1
      then j - pp.repeatingFields else j
    let rest ← printLoop pp dm verbose n (i + 1) (j' + 1)
    return here ++ rest

/-- parsed_message.go:99-130 `Print`: description and entries.  The final `s[:len(s)-1]` removes
one byte of the text, which contains at least the ':' of the heading. -/
def print (tbl : List Pgn) (p : Parsed) (verbose : Bool) : GoM (String × List Line) := do
  let pp ← goIndex tbl p.index
  let ls ← printLoop pp p.data verbose p.data.length 0 0
  return (pp.description, ls)

/-- `CanBoatMessage` (parsed_message.go:52-59) after `json.Unmarshal`; `α` is the type of JSON
values.  The timestamp is not modelled. -/
structure CanBoat (α : Type) where
  priority : Byte
  source : Byte
  destination : Byte
  pgn : Nat
  /-- the `Fields` map in the iteration order of the `range` statement -/
  fields : List (String × α)

/-- The zero `CanBoatMessage`, what a failed `json.Unmarshal` of a non-object leaves. -/
def CanBoat.zero {α : Type} : CanBoat α := ⟨0, 0, 0, 0, []⟩

/-- Result of FromCanBoat: header fields, index and data map. -/
structure CanBoatParsed (α : Type) where
  priority : Byte
  source : Byte
  destination : Byte
  pgn : Nat
  index : Nat
  data : List (Nat × α)

/-- Map write on a map with values of type `α`. -/
def mapSet {α : Type} (d : List (Nat × α)) (k : Nat) (v : α) : List (Nat × α) :=
  if d.any (fun e => e.1 = k) then d.map (fun e => if e.1 = k then (k, v) else e)
  else d ++ [(k, v)]

/-- parsed_message.go:82-88, the inner loop over the fields from index `kk` on. -/
def assignName {α : Type} (k : String) (v : α) : Nat → List Field → List (Nat × α) → List (Nat × α)
  | _, [], dd => dd
  | kk, f :: fs, dd => assignName k v (kk + 1) fs (if f.name = k then mapSet dd kk v else dd)

/-- parsed_message.go:61-97 `FromCanBoat`.  `unmarshal` is `json.Unmarshal` into the zero struct
(environment), from a line of any type `τ`: it returns whatever was decoded; its error is ignored by the
code.
`none` is the returned error. -/
def fromCanBoat {α τ : Type} (tbl : List Pgn) (unmarshal : τ → CanBoat α) (line : τ) :
    GoM (Option (CanBoatParsed α)) := do
  let cbm := unmarshal line
  let (f, fpgn) ← first tbl cbm.pgn
  let (l, _) ← last tbl cbm.pgn
  if f ≠ l then return none
  else
    let dd := cbm.fields.foldl (fun dd e => assignName e.1 e.2 0 fpgn.fieldList dd) []
    return some ⟨cbm.priority, cbm.source, cbm.destination, cbm.pgn, f, dd⟩

/-- parsed_message.go:36-44 `DataMap.MarshalJSON`: the string-keyed map given to `json.Marshal`,
filled in the iteration order of the `range` statement. -/
def marshalKeys {α : Type} (d : List (Int × α)) : List (String × α) :=
  d.foldl (fun out e =>
    let k := toString e.1
    if out.any (fun x => x.1 = k) then out.map (fun x => if x.1 = k then (k, e.2) else x)
    else out ++ [(k, e.2)]) []

end Argo.Nmea2k
