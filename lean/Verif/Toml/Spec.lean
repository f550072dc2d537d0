import Verif.Json.Spec
import Verif.Config.Model

set_option autoImplicit false

/-!
# What a TOML text says

A reader for the part of TOML 0.4 (https://github.com/toml-lang/toml, versions/en/toml-v0.4.0.md) that a file
of tables, strings, integers and booleans needs: comments, `[a.b]` headers, bare and quoted keys, basic and
literal strings with all escapes, decimal integers of 64 bits, booleans; a key or a table defined twice is an
error.  Floats, dates, arrays, inline tables, arrays of tables, multi-line strings and `_` between digits are not
read (`none`).  Nothing here refers to the code of argo or of its TOML library.

`strict` says whether characters below U+0020 in a string have to be escaped, as TOML demands.  A lenient
reader, such as `toml.DecodeFile`, objects only to line ends and to NUL.
-/

namespace Argo.Toml

open Argo

/-- Byte strings. -/
abbrev Str := Signalk.Str

/-- A value. -/
inductive Value where
  | str (s : Str)
  | int (n : Int)
  | bool (b : Bool)
  deriving DecidableEq, Repr

/-- Space or tab. -/
def isBlank (b : UInt8) : Bool := b = 32 || b = 9

/-- Without the white space at the front. -/
def skip (t : Str) : Str := t.dropWhile isBlank

/-- Nothing follows but white space and perhaps a comment. -/
def ends (t : Str) : Bool :=
  match skip t with
  | [] => true
  | b :: _ => b = 35

/-- A character that may not stand in a string as itself. -/
def banned (strict : Bool) (b : UInt8) : Bool :=
  if strict then b.toNat < 32 else b = 0 || b = 10 || b = 13

/-- The one-letter escapes: `\b \t \n \f \r \" \\`. -/
def short (b : UInt8) : Option UInt8 :=
  if b = 98 then some 8
  else if b = 116 then some 9
  else if b = 110 then some 10
  else if b = 102 then some 12
  else if b = 114 then some 13
  else if b = 34 then some 34
  else if b = 92 then some 92
  else none

/-- A number of `n` hexadecimal digits. -/
def hex : Nat → Nat → Str → Option (Nat × Str)
  | 0, acc, t => some (acc, t)
  | _ + 1, _, [] => none
  | n + 1, acc, b :: t =>
    match Json.hexVal b with
    | none => none
    | some d => hex n (acc * 16 + d) t

/-- What `\uXXXX` (`n` is 4) and `\UXXXXXXXX` (8) stand for: the UTF-8 of a Unicode scalar value. -/
def scalarValue (n : Nat) (t : Str) : Option (Str × Str) :=
  match hex n 0 t with
  | none => none
  | some (u, r) =>
    if u < 0xD800 ∨ (0xE000 ≤ u ∧ u < 0x110000) then some (Signalk.bs (String.singleton (Char.ofNat u)), r) else none

/-- One character of a basic string, and the rest; not the closing quotation mark. -/
def character (strict : Bool) : Str → Option (Str × Str)
  | [] => none
  | b :: t =>
    if b = 92 then
      match t with
      | [] => none
      | e :: r =>
        match short e with
        | some c => some ([c], r)
        | none => if e = 117 then scalarValue 4 r else if e = 85 then scalarValue 8 r else none
    else if b = 34 ∨ banned strict b then none
    else some ([b], t)

/-- The rest of a basic string, up to and including the closing quotation mark (at most `n` characters). -/
def basic (strict : Bool) : Nat → Str → Option (Str × Str)
  | 0, _ => none
  | n + 1, t =>
    match t with
    | [] => none
    | b :: r =>
      if b = 34 then some ([], r)
      else
        match character strict (b :: r) with
        | none => none
        | some (c, r') =>
          match basic strict n r' with
          | none => none
          | some (s, r'') => some (c ++ s, r'')

/-- The rest of a literal string `'...'`. -/
def literal (strict : Bool) (t : Str) : Option (Str × Str) :=
  match t.dropWhile (· ≠ 39) with
  | [] => none
  | _ :: r => if (t.takeWhile (· ≠ 39)).any (fun b => b ≠ 9 && banned strict b) then none else some (t.takeWhile (· ≠ 39), r)

/-- The characters of bare keys: letters, digits, `_`, `-`. -/
def bare (b : UInt8) : Bool :=
  (65 ≤ b.toNat && b.toNat ≤ 90) || (97 ≤ b.toNat && b.toNat ≤ 122) || (48 ≤ b.toNat && b.toNat ≤ 57) || b = 95 || b = 45

/-- A key, and the rest. -/
def key (strict : Bool) (t : Str) : Option (Str × Str) :=
  match t with
  | [] => none
  | b :: r =>
    if b = 34 then basic strict (r.length + 1) r
    else if b = 39 then literal strict r
    else if bare b then some (t.takeWhile bare, t.dropWhile bare)
    else none

/-- The keys of a table header, up to and including the `]` (at most `n`), and the rest. -/
def path (strict : Bool) : Nat → Str → Option (List Str × Str)
  | 0, _ => none
  | n + 1, t =>
    match key strict (skip t) with
    | none => none
    | some (k, r) =>
      match skip r with
      | [] => none
      | b :: r' =>
        if b = 93 then some ([k], r')
        else if b = 46 then
          match path strict n r' with
          | none => none
          | some (ks, r'') => some (k :: ks, r'')
        else none

/-- The number that decimal digits denote. -/
def decimal : Nat → Str → Option Nat
  | acc, [] => some acc
  | acc, b :: t => if 48 ≤ b.toNat ∧ b.toNat ≤ 57 then decimal (acc * 10 + (b.toNat - 48)) t else none

/-- An integer: an optional sign, then digits without a leading zero, in the range of 64 bits. -/
def integer (t : Str) : Option Int :=
  let (neg, ds) := match t with
    | [] => (false, [])
    | b :: r => if b = 45 then (true, r) else if b = 43 then (false, r) else (false, t)
  match ds with
  | [] => none
  | d :: r =>
    if d = 48 ∧ r ≠ [] then none
    else
      match decimal 0 ds with
      | none => none
      | some n =>
        let v : Int := if neg then -(n : Int) else n
        if -2 ^ 63 ≤ v ∧ v < 2 ^ 63 then some v else none

/-- A value, and the rest. -/
def value (strict : Bool) (t : Str) : Option (Value × Str) :=
  match t with
  | [] => none
  | b :: r =>
    if b = 34 then (basic strict (r.length + 1) r).map (fun p => (.str p.1, p.2))
    else if b = 39 then (literal strict r).map (fun p => (.str p.1, p.2))
    else
      let word := t.takeWhile (fun b => !(isBlank b || b = 35))
      let rest := t.dropWhile (fun b => !(isBlank b || b = 35))
      if word = [116, 114, 117, 101] then some (.bool true, rest)
      else if word = [102, 97, 108, 115, 101] then some (.bool false, rest)
      else (integer word).map (fun n => (.int n, rest))

/-- What a line says. -/
inductive Line where
  | nothing
  | table (p : List Str)
  | pair (k : Str) (v : Value)
  deriving DecidableEq, Repr

/-- What a line says, `none` if it is not TOML. -/
def line (strict : Bool) (l : Str) : Option Line :=
  match skip l with
  | [] => some .nothing
  | b :: r =>
    if b = 35 then some .nothing
    else if b = 91 then
      match path strict (r.length + 1) r with
      | none => none
      | some (p, e) => if ends e then some (.table p) else none
    else
      match key strict (b :: r) with
      | none => none
      | some (k, r') =>
        match skip r' with
        | [] => none
        | c :: r'' =>
          if c = 61 then
            match value strict (skip r'') with
            | none => none
            | some (v, e) => if ends e then some (.pair k v) else none
          else none

/-- The lines of a text; a line ends with LF or CR LF. -/
def lines : Str → List Str
  | [] => [[]]
  | b :: t =>
    if b = 10 then [] :: lines t
    else if b = 13 ∧ t.head? = some 10 then lines t
    else
      match lines t with
      | [] => [[b]]
      | l :: ls => (b :: l) :: ls

/-- The tables that the lines declare. -/
def tables : List Line → List (List Str)
  | [] => []
  | .table p :: ls => p :: tables ls
  | _ :: ls => tables ls

/-- The values that the lines give, with the place where: the keys of the table, then the key itself. -/
def values : List Str → List Line → List (List Str × Value)
  | _, [] => []
  | _, .table p :: ls => values p ls
  | p, .pair k v :: ls => (p ++ [k], v) :: values p ls
  | p, .nothing :: ls => values p ls

/-- Line by line. -/
def allLines (strict : Bool) : List Str → Option (List Line)
  | [] => some []
  | l :: ls =>
    match line strict l, allLines strict ls with
    | some x, some xs => some (x :: xs)
    | _, _ => none

/-- No table and no key is defined twice, and no key is a table as well. -/
def Consistent (ls : List Line) : Prop :=
  (tables ls).Nodup ∧ ((values [] ls).map Prod.fst).Nodup ∧ ∀ v ∈ values [] ls, ∀ t ∈ tables ls, ¬ v.1 <+: t

instance (ls : List Line) : Decidable (Consistent ls) := by unfold Consistent; infer_instance

/-- The tables and the values of a TOML text; `none` if the text is not TOML. -/
def read (strict : Bool) (text : Str) : Option (List (List Str) × List (List Str × Value)) :=
  match allLines strict (lines text) with
  | none => none
  | some ls => if Consistent ls then some (tables ls, values [] ls) else none

end Argo.Toml
