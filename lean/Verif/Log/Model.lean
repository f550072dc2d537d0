import Verif.Float.Props
import Verif.Nmea2k.PrintProps

set_option autoImplicit false

/-!
# The lines of the log (C124): `ParsedMessage.Print` as a text
-/

namespace Argo.Log

open Argo
open Argo.Nmea2k (Val Pgn DataMap Parsed)
open Argo.Signalk (Str bs Time Stamp)
open Argo.Json (pad fracText ascii)
open Argo.Float (roundEven zeros)

/-! ## Package fmt -/

/-- `%v` of an `uint8`, `uint32`, `uint64` or `int`. -/
def natText (n : ℕ) : Str := bs (toString n)

/-- `%v` of a signed integer. -/
def intText (n : ℤ) : Str := bs (toString n)

/-- `%f` of a `float32` or `float64` that is the number `x`: the decimal number with six digits after the point that is nearest
to `x`, the even one of two (strconv, `bigFtoa`, which converts exactly); the sign is that of `x`. -/
def fixed6 (x : ℚ) : Str :=
  let q := (roundEven (|x| * 10 ^ 6)).toNat
  let ds := bs (toString (q % 10 ^ 6))
  (if x < 0 then [45] else []) ++ bs (toString (q / 10 ^ 6)) ++ 46 :: (zeros (6 - ds.length) ++ ds)

/-- `%v` of a `[]byte`: decimal numbers with blanks between them, in brackets. -/
def bytesText (l : List Byte) : Str :=
  [91] ++ ([32] : Str).intercalate (l.map fun b => natText b.toNat) ++ [93]

/-- A year in the layouts of package time: at least four digits. -/
def yearText (y : ℤ) : List Char := (if y < 0 then ['-'] else []) ++ pad 4 y.natAbs

/-- The layout element `-0700`. -/
def offsetText (off : ℤ) : List Char :=
  (if off.tdiv 60 < 0 then '-' else '+') :: (pad 2 ((off.tdiv 60).natAbs / 60) ++ pad 2 ((off.tdiv 60).natAbs % 60))

/-- `2006-01-02` `sep` `15:04:05` -/
def dateClock (sep : Char) (st : Stamp) : List Char :=
  yearText st.year ++ '-' :: pad 2 st.month.toNat ++ '-' :: pad 2 st.day.toNat ++ sep :: pad 2 st.hour.toNat ++
    ':' :: pad 2 st.minute.toNat ++ ':' :: pad 2 st.second.toNat

/-- `time.Time.String`: `2006-01-02 15:04:05.999999999 -0700 MST`. -/
def timeString (st : Stamp) (ns : ℕ) (zone : Str) : Str :=
  ascii (dateClock ' ' st ++ fracText ns ++ ' ' :: offsetText st.off ++ [' ']) ++ zone

/-- What the program knows of the place it runs in. -/
structure Place where
  /-- the times of messages (`time.Unix(…)`, `time.Date(…, time.Local)`) in the local zone -/
  time : Val → Time
  /-- the abbreviation of the local zone at that time -/
  zone : Val → Str

/-- `%v`, or `%f` for floating point numbers, of a value of a message (parsed_message.go:110-119); the values of floats are
those of `Float.number`. -/
def valueText (here : Place) : Val → Str
  | .nil => bs "nil"
  | .u64 n => natText n
  | .sint _ n => intText n
  | .f64 n r => fixed6 ((Float.number (.f64 n r)).getD 0)
  | .f32div n d => fixed6 ((Float.number (.f32div n d)).getD 0)
  | .f64div n d => fixed6 ((Float.number (.f64div n d)).getD 0)
  | .unix s => timeString (here.time (.unix s)).stamp 0 (here.zone (.unix s))
  | .clock h m s ns => timeString (here.time (.clock h m s ns)).stamp (ns % 10 ^ 9) (here.zone (.clock h m s ns))
  | .text s => bs s
  | .chars b => b
  | .bytes b => bytesText b

/-! ## parsed_message.go -/

/-- `t.Format(layout)` with parsed_message.go:32 `layout`, `2006-01-02T15:04:05.000` (`sep` = 'T'). -/
def receipt (sep : Char) (at_ : Time × ℕ) : Str :=
  ascii (dateClock sep at_.1.stamp ++ '.' :: pad 3 (at_.2 / 10 ^ 6))

/-- parsed_message.go:108-125, the loop of `Print`, with the text so far. -/
def textLoop (here : Place) (pp : Pgn) (dm : DataMap) (verbose : Bool) : ℕ → ℕ → ℤ → Str → GoM Str
  | 0, _, _, s => .ok s
  | n + 1, i, j, s => do
    let f := dm.get i
    let s ←
      if f ≠ .nil then do
        let fd ← Nmea2k.goIndex pp.fieldList j
        pure (s ++ bs " " ++ natText i ++ bs "." ++ bs fd.name ++ bs " = " ++ valueText here f ++ bs ";")
      else if verbose then do
        let fd ← Nmea2k.goIndex pp.fieldList j
        pure (s ++ bs " " ++ natText i ++ bs "." ++ bs fd.name ++ bs " = nil;")
      else pure s
    let j := if 0 < pp.repeatingFields ∧ j = (pp.fieldList.length : ℤ) - 1 then j - pp.repeatingFields else j
    textLoop here pp dm verbose n (i + 1) (j + 1) s

/-- parsed_message.go:99-130 `Print`.  `at_` is `msg.Header.Timestamp` with its nanoseconds. -/
def printText (here : Place) (tbl : List Pgn) (p : Parsed) (at_ : Time × ℕ) (verbose : Bool) : GoM Str := do
  let pp ← Nmea2k.goIndex tbl p.index
  let s := receipt 'T' at_ ++ bs " " ++ natText p.header.priority.toNat ++ bs " " ++ natText p.header.source.toNat ++ bs " " ++
    natText p.header.destination.toNat ++ bs " " ++ natText p.header.pgn ++ bs " " ++ bs pp.description ++ bs ":"
  let s ← textLoop here pp p.data verbose p.data.length 0 0 s
  return s.dropLast

end Argo.Log
