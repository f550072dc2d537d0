import Verif.Nmea2k.Model
import Verif.Signalk.Model

set_option autoImplicit false

/-!
# Model of main/api_server.go

The HTTP routing and the JSON/XML encoders are not modelled: a handler is a function from the query
parameters to the value it encodes.  `nmea2k.PgnList` is the parameter `tbl`.
-/

namespace Argo.Main

open Argo Argo.Nmea2k

/-- Byte strings, as in `Verif.Signalk.Model`. -/
abbrev Str := Signalk.Str

/-- api_server.go:34-43 `IndexEntry`. -/
structure IndexEntry where
  pgn : Nat
  name : String
  category : String
  verified : Bool
  size : Nat
  repeatingFields : Nat
  type : String
  details : Str
  deriving DecidableEq, Repr

/-- `fmt.Sprintf("%d", n)` for a non-negative number. -/
def decimal (n : Nat) : Str := if n < 10 then [UInt8.ofNat (48 + n)] else decimal (n / 10) ++ [UInt8.ofNat (48 + n % 10)]

/-- api_server.go:50-72 `GetPGNSummary`. -/
def getPGNSummary (tbl : List Pgn) (i : Nat) : GoM IndexEntry :=
  match tbl[i]? with
  | none => .error .index
  | some pgn => .ok
    { pgn := pgn.pgn, name := pgn.description, size := pgn.size, category := pgn.category,
      verified := pgn.isKnown,
      type := if pgn.size ≤ 8 then "Single Frame"
        else if pgn.size > 8 ∧ pgn.size ≤ 223 then "Fast Packet"
        else if pgn.size > 223 ∧ pgn.size ≤ 1785 then "ISO 11783 Multi-Packet"
        else "Invalid",
      repeatingFields := pgn.repeatingFields,
      details := Signalk.bs "/api/v1/messages/" ++ decimal i }

/-- api_server.go:85-106: the loop of `MessagesIndex` from index `i` on; `fold` is `strings.EqualFold`. -/
def indexLoop (tbl : List Pgn) (fold : String → String → Bool) (category typ : String) :
    Nat → List Pgn → List IndexEntry → GoM (List IndexEntry)
  | _, [], acc => .ok acc
  | i, pgn :: rest, acc =>
    if category ≠ "" ∧ ¬ fold category pgn.category then indexLoop tbl fold category typ (i + 1) rest acc
    else do
      let p ← getPGNSummary tbl i
      let acc :=
        if typ ≠ "" then
          if typ = "s" ∧ p.size ≤ 8 then acc ++ [p]
          else if typ = "f" ∧ p.size > 8 ∧ p.size ≤ 223 then acc ++ [p]
          else if typ = "i" ∧ p.size > 223 ∧ p.size ≤ 1785 then acc ++ [p]
          else if typ = "o" ∧ p.size > 1785 then acc ++ [p]
          else acc
        else acc ++ [p]
      indexLoop tbl fold category typ (i + 1) rest acc

/-- api_server.go:78-112 `MessagesIndex`; an absent query parameter is the empty string. -/
def messagesIndex (tbl : List Pgn) (fold : String → String → Bool) (category typ : String) :
    GoM (List IndexEntry) := indexLoop tbl fold category typ 0 tbl []

/-- `strconv.ParseInt(s, 10, 32)` without the error: a syntax error gives 0, a range error the nearest
bound. -/
def parseInt32 (s : Str) : Int := (Signalk.parseInt s 32).1

/-- `strings.Split(key, ".")`: the first two pieces. -/
def splitDot (s : Str) : Str × Option Str :=
  match s.dropWhile (· ≠ 46) with
  | [] => (s.takeWhile (· ≠ 46), none)
  | _ :: rest => (s.takeWhile (· ≠ 46), some (rest.takeWhile (· ≠ 46)))

/-- api_server.go:114-145 `MessageDetailsHandler`: the definition encoded, and whether as XML.  A panic
in a handler aborts the request. -/
def messageDetails (tbl : List Pgn) (key : Str) : GoM (Pgn × Bool) := do
  let tok := splitDot key
  let pgn := parseInt32 tok.1
  let xml := tok.2 == some (Signalk.bs "xml")
  if pgn ≥ (tbl.length : Int) then
    let (id, _) ← first tbl (pgn.toNat % 2 ^ 32)
    match tbl[id]? with
    | none => .error .index
    | some d => pure (d, xml)
  else do
    let d ← goIndex tbl pgn
    pure (d, xml)

end Argo.Main
