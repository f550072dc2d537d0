import Verif.Signalk.Model

set_option autoImplicit false

/-!
# How a browser reads a page: the HTML tokenizer

The states of the HTML standard (13.2.5) that the pages of argo use, on the bytes of the page.  Whatever is outside of
this part (comments, unquoted attributes, character references other than those in `refs`, elements with other text
rules than `title` and `script`, ...) is not read at all: the result is `none`.  So what a theorem says about a page that is
read says it of every browser that follows the standard on this part.  Bytes from 0x80 on are the UTF-8 of the text and pass
through; decoding them, and reading CR as LF, comes before and touches nothing else.
-/

namespace Argo.Html

open Argo.Signalk (Str bs)

/-- Tokens: a start tag with its attributes, an end tag, a character (13.2.5).  `α` is the type of characters of texts and
attribute values: bytes in a page. -/
inductive Tok (α : Type) where
  | start (name : Str) (attrs : List (Str × List α)) (selfClosing : Bool)
  | stop (name : Str)
  | chr (c : α)
  | doctype (text : Str)
  deriving DecidableEq, Repr

/-- The states of the tokenizer, with the tag it is reading: `t` its name, `as` its attributes, `n` and `v` name and value of
the attribute it is reading. -/
inductive Mode (α : Type) where
  | data
  | ref (r : Str)
  | tagOpen
  | endOpen
  | tagName (t : Str)
  | endName (t : Str)
  | beforeName (t : Str) (as : List (Str × List α))
  | attrName (t : Str) (as : List (Str × List α)) (n : Str)
  | afterName (t : Str) (as : List (Str × List α)) (n : Str)
  | beforeValue (t : Str) (as : List (Str × List α)) (n : Str)
  | quoted (q : UInt8) (t : Str) (as : List (Str × List α)) (n : Str) (v : List α)
  | quotedRef (q : UInt8) (t : Str) (as : List (Str × List α)) (n : Str) (v : List α) (r : Str)
  | afterQuoted (t : Str) (as : List (Str × List α))
  | selfClosing (t : Str) (as : List (Str × List α))
  | markup (s : Str)
  | doctype (s : Str)
  | raw (t : Str)
  | rawLt (t : Str)
  | rawEnd (t : Str) (n : Str)
  deriving DecidableEq, Repr

/-- The character references read (13.5). -/
def refs : List (Str × Str) :=
  [(bs "amp", bs "&"), (bs "lt", bs "<"), (bs "gt", bs ">"), (bs "quot", bs "\""), (bs "#34", bs "\""), (bs "#39", bs "'"),
   (bs "#43", bs "+"), (bs "times", bs "×"), (bs "copy", bs "©")]

/-- Tab, line feed, form feed, space. -/
def isSpace (b : UInt8) : Bool := b == 9 || b == 10 || b == 12 || b == 32

def isUpper (b : UInt8) : Bool := decide (65 ≤ b.toNat) && decide (b.toNat ≤ 90)

def isLower (b : UInt8) : Bool := decide (97 ≤ b.toNat) && decide (b.toNat ≤ 122)

def isDigit (b : UInt8) : Bool := decide (48 ≤ b.toNat) && decide (b.toNat ≤ 57)

/-- Names of elements and attributes are read in lower case. -/
def lower (b : UInt8) : UInt8 := if isUpper b then b + 32 else b

/-- What may be in a name: letters, digits and dashes (the standard allows more). -/
def isName (b : UInt8) : Bool := isUpper b || isLower b || isDigit b || b == 45

/-- Elements whose content is text up to their end tag. -/
def rawTags : List Str := [bs "title", bs "script"]

/-- Elements with other text rules, which are not read. -/
def otherTags : List Str :=
  [bs "textarea", bs "style", bs "xmp", bs "iframe", bs "noembed", bs "noframes", bs "noscript", bs "plaintext", bs "svg",
   bs "math", bs "template"]

section
variable {α : Type}

/-- The first of two attributes with the same name counts. -/
def addAttr (as : List (Str × List α)) (n : Str) (v : List α) : List (Str × List α) :=
  if n ∈ as.map Prod.fst then as else as ++ [(n, v)]

/-- The end of a start tag. -/
def finish (t : Str) (as : List (Str × List α)) (s : Bool) : Option (Mode α × List (Tok α)) :=
  if t ∈ otherTags then none
  else if t ∈ rawTags then (if s then none else some (.raw t, [.start t as s]))
  else some (.data, [.start t as s])

/-- One byte.  `inj` takes bytes to characters. -/
def step (inj : UInt8 → α) : Mode α → UInt8 → Option (Mode α × List (Tok α))
  | .data, b =>
    if b == 60 then some (.tagOpen, [])
    else if b == 38 then some (.ref [], [])
    else if b == 0 then none
    else some (.data, [.chr (inj b)])
  | .ref r, b =>
    if b == 59 then (refs.find? (fun e => e.1 == r)).map (fun e => (.data, e.2.map (fun x => .chr (inj x))))
    else some (.ref (r ++ [b]), [])
  | .tagOpen, b =>
    if b == 33 then some (.markup [], [])
    else if b == 47 then some (.endOpen, [])
    else if isUpper b || isLower b then some (.tagName [lower b], [])
    else none
  | .endOpen, b => if isUpper b || isLower b then some (.endName [lower b], []) else none
  | .tagName t, b =>
    if isSpace b then some (.beforeName t [], [])
    else if b == 47 then some (.selfClosing t [], [])
    else if b == 62 then finish t [] false
    else if isName b then some (.tagName (t ++ [lower b]), [])
    else none
  | .endName t, b =>
    if b == 62 then some (.data, [.stop t])
    else if isName b then some (.endName (t ++ [lower b]), [])
    else none
  | .beforeName t as, b =>
    if isSpace b then some (.beforeName t as, [])
    else if b == 47 then some (.selfClosing t as, [])
    else if b == 62 then finish t as false
    else if isName b then some (.attrName t as [lower b], [])
    else none
  | .attrName t as n, b =>
    if isSpace b then some (.afterName t as n, [])
    else if b == 47 then some (.selfClosing t (addAttr as n []), [])
    else if b == 62 then finish t (addAttr as n []) false
    else if b == 61 then some (.beforeValue t as n, [])
    else if isName b then some (.attrName t as (n ++ [lower b]), [])
    else none
  | .afterName t as n, b =>
    if isSpace b then some (.afterName t as n, [])
    else if b == 47 then some (.selfClosing t (addAttr as n []), [])
    else if b == 61 then some (.beforeValue t as n, [])
    else if b == 62 then finish t (addAttr as n []) false
    else if isName b then some (.attrName t (addAttr as n []) [lower b], [])
    else none
  | .beforeValue t as n, b =>
    if isSpace b then some (.beforeValue t as n, [])
    else if b == 34 || b == 39 then some (.quoted b t as n [], [])
    else none
  | .quoted q t as n v, b =>
    if b == q then some (.afterQuoted t (addAttr as n v), [])
    else if b == 38 then some (.quotedRef q t as n v [], [])
    else if b == 0 then none
    else some (.quoted q t as n (v ++ [inj b]), [])
  | .quotedRef q t as n v r, b =>
    if b == 59 then (refs.find? (fun e => e.1 == r)).map (fun e => (.quoted q t as n (v ++ e.2.map inj), []))
    else some (.quotedRef q t as n v (r ++ [b]), [])
  | .afterQuoted t as, b =>
    if isSpace b then some (.beforeName t as, [])
    else if b == 47 then some (.selfClosing t as, [])
    else if b == 62 then finish t as false
    else none
  | .selfClosing t as, b => if b == 62 then finish t as true else none
  | .markup s, b =>
    if s ++ [b] == bs "DOCTYPE" then some (.doctype [], [])
    else if (s ++ [b]).isPrefixOf (bs "DOCTYPE") then some (.markup (s ++ [b]), [])
    else none
  | .doctype s, b => if b == 62 then some (.data, [.doctype s]) else some (.doctype (s ++ [b]), [])
  | .raw t, b =>
    if b == 60 then some (.rawLt t, [])
    else if b == 38 || b == 0 then none
    else some (.raw t, [.chr (inj b)])
  | .rawLt t, b => if b == 47 then some (.rawEnd t [], []) else none
  | .rawEnd t n, b =>
    if b == 62 then (if n == t then some (.data, [.stop t]) else none)
    else if isName b then some (.rawEnd t (n ++ [lower b]), [])
    else none

/-- The bytes one after the other. -/
def run (inj : UInt8 → α) : Mode α → Str → Option (Mode α × List (Tok α))
  | m, [] => some (m, [])
  | m, b :: r =>
    match step inj m b with
    | none => none
    | some (m', ts) =>
      match run inj m' r with
      | none => none
      | some (m'', us) => some (m'', ts ++ us)

end

/-- The tokens of a page. -/
def tokens (page : Str) : Option (List (Tok UInt8)) :=
  match run id .data page with
  | some (.data, ts) => some ts
  | _ => none

/-- The value of an attribute. -/
def attr {α : Type} (as : List (Str × List α)) (name : String) : Option (List α) :=
  (as.find? (fun e => e.1 == bs name)).map Prod.snd

/-- The start tags that have this `id`. -/
def withId (ts : List (Tok UInt8)) (i : String) : List (Tok UInt8) :=
  ts.filter fun
    | .start _ as _ => attr as "id" == some (bs i)
    | _ => false

/-! ## Addresses -/

/-- The scheme of an address (URL standard, 4.4, "scheme start state" and "scheme state"): letters, digits, `+`, `-`, `.`
starting with a letter, up to a colon; in lower case.  `none` if it has none, which makes it relative to the page. -/
def schemeTail : Str → Option Str
  | [] => none
  | b :: r =>
    if b == 58 then some []
    else if isUpper b || isLower b || isDigit b || b == 43 || b == 45 || b == 46 then (schemeTail r).map (lower b :: ·)
    else none

def scheme : Str → Option Str
  | [] => none
  | b :: r => if isUpper b || isLower b then (schemeTail r).map (lower b :: ·) else none

/-- What a browser drops from an address before it reads it: spaces and control characters at the start, tabs and line breaks
anywhere (URL standard, 4.4, steps 1-3). -/
def address (s : Str) : Str :=
  (s.filter (fun b => b != 9 && b != 10 && b != 13)).dropWhile (fun b => decide (b.toNat ≤ 32))

end Argo.Html
