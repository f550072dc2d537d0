import Verif.Float.Round
import Verif.Nmea2k.Table
import Verif.Json.Delta

set_option autoImplicit false

/-!
# Floating point values of messages and their texts
-/

namespace Argo.Float

open Argo.Nmea2k (Res Val)
open Argo.Signalk (Str bs)

/-! ## Values -/

/-- `math.Pi`, to all the digits Go's source has. -/
def goPi : ℚ := 3.14159265358979323846264338327950288419716939937510582097494459

/-- pgn_array.go:29 `RadianToDegree` -/
def radianToDegree : ℚ := 180 / goPi

/-- pgn_array.go:37 `RES_DEGREES` -/
def resDegrees : ℚ := 1 / 10 ^ 4 * radianToDegree

/-- pgn_array.go:38 `RES_ROTATION` -/
def resRotation : ℚ := 1 / 10 ^ 3 / 32 * radianToDegree

/-- The constant expressions of the factors in pgn_array.go (all there are: `table_ok`).  Go's compiler evaluates them
with at least 256 bits; here they are exact. -/
def constants : List (String × ℚ) :=
  [("0.001", 1 / 1000), ("0.004", 4 / 1000), ("0.01", 1 / 100), ("0.05", 5 / 100), ("0.1", 1 / 10),
   ("1.0 / 128", 1 / 128), ("1.0 / 16384", 1 / 16384), ("10", 10), ("100.0 / 25000", 100 / 25000), ("1e-6", 1 / 10 ^ 6),
   ("RES_DEGREES", resDegrees), ("RES_ROTATION", resRotation), ("RES_ROTATION * 0.0001", resRotation * (1 / 10 ^ 4))]

/-- The value of a constant expression; `none` if pgn_array.go does not have it. -/
def constant (s : String) : Option ℚ := (constants.find? fun e => e.1 = s).map Prod.snd

/-- The number a floating point value is: raw_message.go:463-475 (`float64(n) * float64(res)`), 227, 296 and 352
(`float32(n) / d`), 238 (`float64(n) / d`).  `Field.Resolution` (pgn_array.go:61) is a `float64`; the constants `d` are 1e7,
1e16, 100 and 1000.  No other floats are decoded (`parsed_onBus`). -/
def number : Val → Option ℚ
  | .f64 n (.scale s) => (constant s).map fun c => double.round (double.round n * double.round c)
  | .f32div n d => some (single.round (single.round n / single.round d))
  | .f64div n d => some (double.round (double.round n / double.round d))
  | _ => none

/-- The format of a value. -/
def fmtOf : Val → Fmt
  | .f32div _ _ => single
  | _ => double

/-! ## Texts -/

/-- `strconv.FormatFloat(x, _, -1, bits)` by its documentation: "the smallest number of digits necessary such that ParseFloat
will return f exactly", for `0 ≤ x`: the digits are those of `m`, followed or preceded by `k` places. -/
structure Shortest (F : Fmt) (x : ℚ) (m : ℕ) (k : ℤ) : Prop where
  exact : F.round (m * 10 ^ k) = x
  fewest : ∀ (m' : ℕ) (k' : ℤ) (n : ℕ), F.round (m' * 10 ^ k') = x → m' < 10 ^ n → m < 10 ^ n
  zero : m = 0 → k = 0

def zeros (n : ℕ) : Str := List.replicate n 48

/-- `strconv` `fmtF` with the shortest precision: digits, with zeros up to the point. -/
def layoutF (m : ℕ) (k : ℤ) : Str :=
  let ds := bs (toString m)
  if 0 ≤ k then ds ++ zeros k.toNat
  else
    let j := (-k).toNat
    if j < ds.length then ds.take (ds.length - j) ++ 46 :: ds.drop (ds.length - j)
    else [48, 46] ++ zeros (j - ds.length) ++ ds

/-- `strconv` `fmtE`, and the clean-up of the exponent in encoding/json `floatEncoder`. -/
def layoutE (m : ℕ) (k : ℤ) : Str :=
  let ds := bs (toString m)
  let e := (ds.length : ℤ) - 1 + k
  ds.take 1 ++ (if ds.length = 1 then [] else 46 :: ds.drop 1) ++ [101, if e < 0 then 45 else 43] ++ bs (toString e.natAbs)

/-- encoding/json `floatEncoder`: the format by the size, the limits compared in the type of the value. -/
def layout (F : Fmt) (x : ℚ) (m : ℕ) (k : ℤ) : Str :=
  (if x < 0 then [45] else []) ++
    if x ≠ 0 ∧ (|x| < F.round (1 / 10 ^ 6) ∨ F.round (10 ^ 21) ≤ |x|) then layoutE m k else layoutF m k

/-- encoding/json `floatEncoder` of a value that is the number `x`. -/
def FloatText (F : Fmt) (x : ℚ) (t : Str) : Prop := ∃ m k, Shortest F |x| m k ∧ t = layout F x m k

/-- Every float of a message is printed so, and equal floats are printed equally. -/
structure Formats (enc : Json.Enc) : Prop where
  text : ∀ v x, number v = some x → FloatText (fmtOf v) x (enc.float v)
  same : ∀ v v' x, number v = some x → number v' = some x → fmtOf v = fmtOf v' → enc.float v = enc.float v'

/-! ## What a text says -/

/-- Decimal digits. -/
def digitsVal : Str → ℕ := List.foldl (fun n b => 10 * n + (b.toNat - 48)) 0

/-- The number that a JSON number stands for (RFC 8259, section 6): digits with or without sign, decimal point and exponent. -/
def decimal (t : Str) : ℚ :=
  let neg := t.head? = some 45
  let t := if neg then t.drop 1 else t
  let i := t.takeWhile Json.isDigit
  let t := t.dropWhile Json.isDigit
  let f := if t.head? = some 46 then (t.drop 1).takeWhile Json.isDigit else []
  let t := if t.head? = some 46 then (t.drop 1).dropWhile Json.isDigit else t
  let e : ℤ := if t.head? = some 101 ∨ t.head? = some 69 then
      if (t.drop 1).head? = some 45 then -(digitsVal (t.drop 2))
      else if (t.drop 1).head? = some 43 then digitsVal (t.drop 2) else digitsVal (t.drop 1)
    else 0
  (if neg then -1 else 1) * digitsVal (i ++ f) * 10 ^ (e - f.length)

end Argo.Float
