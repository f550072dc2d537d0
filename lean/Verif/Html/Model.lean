import Verif.Config.Page
import Verif.Packages.Page
import Verif.Html.Spec

set_option autoImplicit false

/-!
# html/template as the pages use it

The templates (`Pages.lean`) are lists of nodes: text, actions, conditions.  html/template chooses an escaper for
every action from the place it stands in; here the escaper is part of the node (`tools/gen_pages.py` puts it there: the one for
addresses in `href`, the one for attributes in other quoted attributes, the one for text elsewhere), and `Props.lean` checks by
the tokenizer that each stands in such a place.
-/

namespace Argo.Html

open Argo.Signalk (Str bs)
open Argo.Config (Setting Scalar Conf)
open Argo.Packages (NpmObject)

/-! ## Escapers -/

/-- html/template `htmlReplacementTable` (html.go), used by its `htmlReplacer` for text (`htmlEscaper`) and for quoted
attributes (`attrEscaper`) alike. -/
def replacement (b : UInt8) : Str :=
  if b == 0 then [0xEF, 0xBF, 0xBD]
  else if b == 34 then bs "&#34;"
  else if b == 38 then bs "&amp;"
  else if b == 39 then bs "&#39;"
  else if b == 43 then bs "&#43;"
  else if b == 60 then bs "&lt;"
  else if b == 62 then bs "&gt;"
  else [b]

/-- html/template `htmlReplacer` (html.go).  It walks over the runes; the ones it replaces are ASCII, so bytes do. -/
def htmlReplacer (s : Str) : Str := s.flatMap replacement

/-- html/template `isHex` (css.go). -/
def isHex (b : UInt8) : Bool :=
  isDigit b || (decide (97 ≤ b.toNat) && decide (b.toNat ≤ 102)) || (decide (65 ≤ b.toNat) && decide (b.toNat ≤ 70))

/-- `strings.EqualFold` of a byte string with a word in lower-case ASCII letters other than k: case is ignored, and U+017F (C5
BF) is an s. -/
def fold : Str → Str
  | [] => []
  | [b] => [lower b]
  | a :: b :: r => if a == 0xC5 && b == 0xBF then 115 :: fold r else lower a :: fold (b :: r)

/-- html/template `isSafeURL` (url.go): what is before the first colon, if that has no slash, is one of three protocols. -/
def isSafeURL (s : Str) : Bool :=
  let protocol := s.takeWhile (fun b => b != 58)
  if (58 : UInt8) ∈ s ∧ (47 : UInt8) ∉ protocol then
    fold protocol == bs "http" || fold protocol == bs "https" || fold protocol == bs "mailto"
  else true

/-- html/template `urlFilter` (url.go); the other values than strings it treats do not occur. -/
def urlFilter (s : Str) : Str := if isSafeURL s then s else bs "#ZgotmplZ"

/-- A hexadecimal digit of `fmt.Fprintf("%02x")`. -/
def hexDigit (n : Nat) : UInt8 := if n < 10 then UInt8.ofNat (48 + n) else UInt8.ofNat (87 + n)

/-- Two hexadecimal digits follow. -/
def twoHex : Str → Bool
  | x :: y :: _ => isHex x && isHex y
  | _ => false

/-- html/template `processURLOnto` (url.go) with `norm`. -/
def normalize : Str → Str
  | [] => []
  | b :: r =>
    if b ∈ bs "!#$&*+,/:;=?@[]-._~" then b :: normalize r
    else if b == 37 && twoHex r then b :: normalize r
    else if isUpper b || isLower b || isDigit b then b :: normalize r
    else 37 :: hexDigit (b.toNat / 16) :: hexDigit (b.toNat % 16) :: normalize r

/-- The escapers html/template chooses (escape.go `escapeAction`): for text, for quoted attributes, for addresses in quoted
attributes. -/
inductive Esc where
  | text
  | attr
  | url
  deriving DecidableEq, Repr

def Esc.apply : Esc → Str → Str
  | .text, s => htmlReplacer s
  | .attr, s => htmlReplacer s
  | .url, s => htmlReplacer (normalize (urlFilter s))

/-! ## Templates -/

/-- A node of a template: text, an action `{{f}}`, a condition `{{if f}}..{{else}}..{{end}}` whose branches hold neither
conditions nor ranges. -/
inductive Leaf (F : Type) where
  | text (s : Str)
  | act (e : Esc) (f : F)

inductive Node (F : Type) where
  | leaf (l : Leaf F)
  | cond (f : F) (yes no : List (Leaf F))

/-- A text of several lines. -/
def lines : List String → Str
  | [] => []
  | [s] => bs s
  | s :: r => bs s ++ 10 :: lines r

/-- html/template drops HTML comments (escape.go `escapeText`).  `inside` a comment or not; `skip` bytes of a delimiter still
to be dropped. -/
def strip : Bool → Nat → Str → Str
  | _, _, [] => []
  | inside, k + 1, _ :: r => strip inside k r
  | true, 0, b :: r => if (bs "-->").isPrefixOf (b :: r) then strip false 2 r else strip true 0 r
  | false, 0, b :: r => if (bs "<!--").isPrefixOf (b :: r) then strip true 3 r else b :: strip false 0 r

/-- What is written: bytes of the template and values, escaped. -/
inductive Sym (F : Type) where
  | byte (b : UInt8)
  | hole (e : Esc) (f : F)
  deriving DecidableEq, Repr

def Leaf.syms {F : Type} : Leaf F → List (Sym F)
  | .text s => (strip false 0 s).map .byte
  | .act e f => [.hole e f]

/-- text/template `exec` up to the values: `truth` is what `{{if}}` makes of a value. -/
def Node.syms {F : Type} (truth : F → Bool) : Node F → List (Sym F)
  | .leaf l => l.syms
  | .cond f yes no => (if truth f then yes else no).flatMap Leaf.syms

def symsOf {F : Type} (truth : F → Bool) (ns : List (Node F)) : List (Sym F) := ns.flatMap (Node.syms truth)

/-- The bytes written, where `print` gives the text of a value. -/
def Sym.out {F : Type} (print : F → Str) : Sym F → Str
  | .byte b => [b]
  | .hole e f => e.apply (print f)

def render {F : Type} (print : F → Str) (l : List (Sym F)) : Str := l.flatMap (Sym.out print)

/-- `fmt.Sprint` of a setting. -/
def sprint : Scalar → Str
  | .str s => s
  | .int n => bs (toString n)
  | .bool b => bs (toString b)

/-- text/template `IsTrue` of a setting: not the zero value. -/
def isTrue : Scalar → Bool
  | .str s => s != []
  | .int n => n != 0
  | .bool b => b

/-- What the apps page shows of a package. -/
inductive AppField where
  | name
  | version
  | installed
  | path
  | description
  | author
  | npm
  deriving DecidableEq, Repr

/-- templates/apps.gtpl:15-40: `$app.Package.Name`, `$app.Package.Version`, `$app.Version`, `$app.Path`,
`$app.Package.Description`, `$app.Package.Author.Name`, `$app.Package.Links.Npm`. -/
def AppField.get (o : NpmObject) : AppField → Str
  | .name => o.package.name
  | .version => o.package.version
  | .installed => o.version
  | .path => o.path
  | .description => o.package.description
  | .author => o.package.author
  | .npm => o.package.npm

end Argo.Html
