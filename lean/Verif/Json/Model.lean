import Verif.Json.Spec
import Verif.Signalk.Model
import Verif.Nmea2k.Model

set_option autoImplicit false

/-!
# Model of `json.Marshal` (encoding/json, from its documentation and source)

A Go value to be encoded is a tree; the library prints it without insignificant whitespace.
-/

namespace Argo.Json

open Argo
open Argo.Signalk (Str bs)

/-- A value as `json.Marshal` sees it: strings are Go strings (any bytes), numbers are already texts. -/
inductive Out where
  | null
  | bool (b : Bool)
  | num (text : List Byte)
  | str (s : Str)
  | arr (l : List Out)
  | obj (l : List (Str × Out))

/-- One digit of a `\u` escape. -/
def hexLow (n : Nat) : Byte := if n < 10 then UInt8.ofNat (48 + n) else UInt8.ofNat (87 + n)

/-- encoding/json `encodeState.string` with HTML escaping, one byte below 0x80.  `newer` is Go 1.22 or later,
which has short escapes for backspace and form feed. -/
def escByte (newer : Bool) (b : Byte) : List Byte :=
  if b = 34 ∨ b = 92 then [92, b]
  else if b = 10 then [92, 110]
  else if b = 13 then [92, 114]
  else if b = 9 then [92, 116]
  else if newer = true ∧ b = 8 then [92, 98]
  else if newer = true ∧ b = 12 then [92, 102]
  else if b.toNat < 0x20 ∨ b = 60 ∨ b = 62 ∨ b = 38 then
    [92, 117, 48, 48, hexLow (b.toNat / 16), hexLow (b.toNat % 16)]
  else [b]

/-- encoding/json `encodeState.string`: the body of a string.  An invalid byte becomes `\ufffd`; U+2028 and
U+2029 are escaped; every other character from 0x80 is copied. -/
def encChars (newer : Bool) : Nat → List Byte → List Byte
  | 0, _ => []
  | _ + 1, [] => []
  | n + 1, b :: r =>
    if b.toNat < 0x80 then escByte newer b ++ encChars newer n r
    else
      match firstChar (b :: r) with
      | none => bs "\\ufffd" ++ encChars newer n r
      | some c =>
        (if c = Char.ofNat 0x2028 then bs "\\u2028" else if c = Char.ofNat 0x2029 then bs "\\u2029"
          else (b :: r).take c.utf8Size) ++ encChars newer n ((b :: r).drop c.utf8Size)

/-- A quoted string. -/
def encString (newer : Bool) (s : Str) : List Byte := 34 :: encChars newer s.length s ++ [34]

/-- How a value is laid out: the whitespace at the beginning of a line at each depth and after a colon. -/
structure Style where
  line : Nat → List Byte
  colon : List Byte

mutual

/-- encoding/json `Marshal` and `Indent`; `d` is the depth.  Empty arrays and objects stay on one line. -/
def layout (newer : Bool) (st : Style) (d : Nat) : Out → List Byte
  | .null => bs "null"
  | .bool b => if b then bs "true" else bs "false"
  | .num t => t
  | .str s => encString newer s
  | .arr [] => [91, 93]
  | .arr (v :: l) => 91 :: st.line (d + 1) ++ layoutArr newer st (d + 1) (v :: l) ++ st.line d ++ [93]
  | .obj [] => [123, 125]
  | .obj (m :: l) => 123 :: st.line (d + 1) ++ layoutObj newer st (d + 1) (m :: l) ++ st.line d ++ [125]

def layoutArr (newer : Bool) (st : Style) (d : Nat) : List Out → List Byte
  | [] => []
  | [v] => layout newer st d v
  | v :: l => layout newer st d v ++ 44 :: st.line d ++ layoutArr newer st d l

def layoutObj (newer : Bool) (st : Style) (d : Nat) : List (Str × Out) → List Byte
  | [] => []
  | [(k, v)] => encString newer k ++ 58 :: st.colon ++ layout newer st d v
  | (k, v) :: l => encString newer k ++ 58 :: st.colon ++ layout newer st d v ++ 44 :: st.line d ++ layoutObj newer st d l

end

/-- No whitespace. -/
def compact : Style := ⟨fun _ => [], []⟩

/-- `MarshalIndent(v, "", "  ")`. -/
def indented : Style := ⟨fun d => 10 :: List.replicate (2 * d) 32, [32]⟩

/-- encoding/json `Marshal`. -/
def print (newer : Bool) (o : Out) : List Byte := layout newer compact 0 o

/-- encoding/json `MarshalIndent` with no prefix and two spaces. -/
def printIndent (newer : Bool) (o : Out) : List Byte := layout newer indented 0 o

end Argo.Json
