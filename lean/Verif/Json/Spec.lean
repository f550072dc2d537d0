import Verif.Go

set_option autoImplicit false

/-!
# JSON (RFC 8259), read as a receiver would

An independent reader of JSON texts: what a client gets out of the bytes it received.  Nothing here refers to
the encoder.  UTF-8 is Lean's (`String.utf8EncodeChar`; a `Char` is a Unicode scalar value).
-/

namespace Argo.Json

open Argo

/-- A JSON value.  A number is kept as its text. -/
inductive Json where
  | null
  | bool (b : Bool)
  | num (text : List Byte)
  | str (s : List Char)
  | arr (l : List Json)
  | obj (l : List (List Char × Json))

/-- The character whose encoding begins the bytes, if there is one. -/
def firstChar (bs : List Byte) : Option Char := bs.toByteArray.utf8DecodeChar? 0

/-- RFC 8259 section 2: insignificant whitespace. -/
def isWs (b : Byte) : Bool := b == 0x20 || b == 0x09 || b == 0x0A || b == 0x0D

def skipWs : List Byte → List Byte
  | [] => []
  | b :: r => if isWs b then skipWs r else b :: r

/-! ## Numbers (section 6) -/

def isDigit (b : Byte) : Bool := decide (48 ≤ b.toNat ∧ b.toNat ≤ 57)

/-- The longest run of digits. -/
def digits (bs : List Byte) : List Byte × List Byte := (bs.takeWhile isDigit, bs.dropWhile isDigit)

/-- `int = zero / ( digit1-9 *DIGIT )` -/
def intPart : List Byte → Option (List Byte × List Byte)
  | b :: r =>
    if b = 48 then some ([b], r)
    else if isDigit b then some (b :: (digits r).1, (digits r).2)
    else none
  | [] => none

/-- `[ frac ]`, `frac = decimal-point 1*DIGIT` -/
def fracPart : List Byte → Option (List Byte × List Byte)
  | b :: r =>
    if b = 46 then if (digits r).1 = [] then none else some (b :: (digits r).1, (digits r).2)
    else some ([], b :: r)
  | [] => some ([], [])

/-- `[ exp ]`, `exp = e [ minus / plus ] 1*DIGIT` -/
def expPart : List Byte → Option (List Byte × List Byte)
  | b :: r =>
    if b = 101 ∨ b = 69 then
      match r with
      | s :: r' =>
        if s = 43 ∨ s = 45 then
          if (digits r').1 = [] then none else some (b :: s :: (digits r').1, (digits r').2)
        else if (digits r).1 = [] then none else some (b :: (digits r).1, (digits r).2)
      | [] => none
    else some ([], b :: r)
  | [] => some ([], [])

/-- `number = [ minus ] int [ frac ] [ exp ]` -/
def number (bs : List Byte) : Option (List Byte × List Byte) :=
  let (m, bs) := match bs with
    | b :: r => if b = 45 then ([b], r) else ([], b :: r)
    | [] => ([], [])
  match intPart bs with
  | none => none
  | some (i, bs) =>
    match fracPart bs with
    | none => none
    | some (f, bs) =>
      match expPart bs with
      | none => none
      | some (e, bs) => some (m ++ i ++ f ++ e, bs)

/-! ## Strings (section 7) -/

def hexVal (b : Byte) : Option Nat :=
  if 48 ≤ b.toNat ∧ b.toNat ≤ 57 then some (b.toNat - 48)
  else if 97 ≤ b.toNat ∧ b.toNat ≤ 102 then some (b.toNat - 87)
  else if 65 ≤ b.toNat ∧ b.toNat ≤ 70 then some (b.toNat - 55)
  else none

/-- `4HEXDIG` -/
def hex4 : List Byte → Option (Nat × List Byte)
  | a :: b :: c :: d :: r =>
    match hexVal a, hexVal b, hexVal c, hexVal d with
    | some a, some b, some c, some d => some (((a * 16 + b) * 16 + c) * 16 + d, r)
    | _, _, _, _ => none
  | _ => none

/-- What follows `\u`: a code unit, or a surrogate pair. -/
def unicode (bs : List Byte) : Option (Char × List Byte) :=
  match hex4 bs with
  | none => none
  | some (u, r) =>
    if 0xD800 ≤ u ∧ u < 0xDC00 then
      match r with
      | x :: y :: r' =>
        if x = 92 ∧ y = 117 then
          match hex4 r' with
          | some (v, r'') =>
            if 0xDC00 ≤ v ∧ v < 0xE000 then
              some (Char.ofNat (0x10000 + (u - 0xD800) * 0x400 + (v - 0xDC00)), r'') else none
          | none => none
        else none
      | _ => none
    else if 0xDC00 ≤ u ∧ u < 0xE000 then none
    else some (Char.ofNat u, r)

/-- One character of a string, escaped or not. -/
def character : List Byte → Option (Char × List Byte)
  | [] => none
  | b :: r =>
    if b = 92 then
      match r with
      | [] => none
      | e :: r' =>
        if e = 34 then some ('"', r')
        else if e = 92 then some ('\\', r')
        else if e = 47 then some ('/', r')
        else if e = 98 then some (Char.ofNat 8, r')
        else if e = 102 then some (Char.ofNat 12, r')
        else if e = 110 then some ('\n', r')
        else if e = 114 then some ('\r', r')
        else if e = 116 then some ('\t', r')
        else if e = 117 then unicode r'
        else none
    else if b.toNat < 0x20 then none
    else
      match firstChar (b :: r) with
      | some c => some (c, (b :: r).drop c.utf8Size)
      | none => none

/-- The characters up to the closing quotation mark.  The first argument bounds the steps; the length of the
text is enough. -/
def stringTail : Nat → List Byte → Option (List Char × List Byte)
  | 0, _ => none
  | n + 1, bs =>
    match bs with
    | [] => none
    | b :: r =>
      if b = 34 then some ([], r)
      else
        match character (b :: r) with
        | none => none
        | some (c, r') =>
          match stringTail n r' with
          | none => none
          | some (cs, r'') => some (c :: cs, r'')

/-! ## Values (sections 3 to 5) -/

/-- The literal name, if the bytes begin with it. -/
def name (lit : List Byte) (bs : List Byte) : Option (List Byte) :=
  if bs.take lit.length = lit then some (bs.drop lit.length) else none

mutual

/-- A value, whitespace before it allowed. -/
def value : Nat → List Byte → Option (Json × List Byte)
  | 0, _ => none
  | n + 1, bs =>
    match skipWs bs with
    | [] => none
    | b :: r =>
      if b = 34 then
        match stringTail n r with
        | some (s, r') => some (.str s, r')
        | none => none
      else if b = 91 then
        match skipWs r with
        | [] => none
        | c :: r' =>
          if c = 93 then some (.arr [], r')
          else
            match elements n (c :: r') with
            | some (l, r'') => some (.arr l, r'')
            | none => none
      else if b = 123 then
        match skipWs r with
        | [] => none
        | c :: r' =>
          if c = 125 then some (.obj [], r')
          else
            match members n (c :: r') with
            | some (l, r'') => some (.obj l, r'')
            | none => none
      else if b = 116 then
        match name [116, 114, 117, 101] (b :: r) with
        | some r' => some (.bool true, r')
        | none => none
      else if b = 102 then
        match name [102, 97, 108, 115, 101] (b :: r) with
        | some r' => some (.bool false, r')
        | none => none
      else if b = 110 then
        match name [110, 117, 108, 108] (b :: r) with
        | some r' => some (.null, r')
        | none => none
      else
        match number (b :: r) with
        | some (t, r') => some (.num t, r')
        | none => none

/-- `value *( value-separator value ) end-array` -/
def elements : Nat → List Byte → Option (List Json × List Byte)
  | 0, _ => none
  | n + 1, bs =>
    match value n bs with
    | none => none
    | some (v, r) =>
      match skipWs r with
      | [] => none
      | c :: r' =>
        if c = 93 then some ([v], r')
        else if c = 44 then
          match elements n r' with
          | some (l, r'') => some (v :: l, r'')
          | none => none
        else none

/-- `member *( value-separator member ) end-object` -/
def members : Nat → List Byte → Option (List (List Char × Json) × List Byte)
  | 0, _ => none
  | n + 1, bs =>
    match skipWs bs with
    | [] => none
    | q :: r =>
      if q = 34 then
        match stringTail n r with
        | none => none
        | some (k, r1) =>
          match skipWs r1 with
          | [] => none
          | c :: r2 =>
            if c = 58 then
              match value n r2 with
              | none => none
              | some (v, r3) =>
                match skipWs r3 with
                | [] => none
                | d :: r4 =>
                  if d = 125 then some ([(k, v)], r4)
                  else if d = 44 then
                    match members n r4 with
                    | some (l, r5) => some ((k, v) :: l, r5)
                    | none => none
                  else none
            else none
      else none

end

/-- The bytes are a JSON text with the given value (section 2). -/
def Reads (bs : List Byte) (v : Json) : Prop := ∃ n r, value n bs = some (v, r) ∧ skipWs r = []

/-- The characters of a byte string, every byte that does not belong to the encoding of a character read as
U+FFFD. -/
def scalars : Nat → List Byte → List Char
  | 0, _ => []
  | _ + 1, [] => []
  | n + 1, b :: r =>
    match firstChar (b :: r) with
    | some c => c :: scalars n ((b :: r).drop c.utf8Size)
    | none => Char.ofNat 0xFFFD :: scalars n r

def chars (bs : List Byte) : List Char := scalars bs.length bs

end Argo.Json
