import Verif.Playback.Reader
import Verif.Signalk.Model

set_option autoImplicit false

/-!
# Model of the first lines of `FromCanBoat` (nmea2k/parsed_message.go:61-71)

`json.Unmarshal` into a `CanBoatMessage` and `time.Parse`, from their documentation and source (packages encoding/json and time).
-/

namespace Argo.Playback

open Argo
open Argo.Json (Json isDigit)
open Argo.Signalk (Time)

/-! ## encoding/json -/

mutual

/-- How deep arrays and objects are nested. -/
def depth : Json → Nat
  | .arr l => depthL l + 1
  | .obj l => depthO l + 1
  | _ => 0

def depthL : List Json → Nat
  | [] => 0
  | v :: l => max (depth v) (depthL l)

def depthO : List (List Char × Json) → Nat
  | [] => 0
  | m :: l => max (depth m.2) (depthO l)

end

/-- `checkValid` (scanner.go): the value of a text without syntax error.  `limit` is `maxNestingDepth`, 10000 since Go 1.15,
none before. -/
def accepted (limit : Option Nat) (line : List Byte) : Option Json :=
  match read line, limit with
  | some v, some n => if depth v ≤ n then some v else none
  | some v, none => some v
  | none, _ => none

/-- The fields of `CanBoatMessage` (parsed_message.go:52-59). -/
inductive Key where
  | timestamp | prio | src | dst | pgn | fields
  deriving DecidableEq, Repr

/-- The tags (parsed_message.go:53-58). -/
def keys : List (String × Key) :=
  [("timestamp", .timestamp), ("prio", .prio), ("src", .src), ("dst", .dst), ("pgn", .pgn), ("fields", .fields)]

/-- Unicode simple folding of what folds to a lower case ASCII letter (fold.go: besides A to Z, the long s and the Kelvin sign). -/
def fold (c : Char) : Char :=
  if c = Char.ofNat 0x17F then 's' else if c = Char.ofNat 0x212A then 'k' else c.toLower

/-- decode.go, `object`: the field a member is stored in.  (An exact match is preferred; no two tags are equal up to case.) -/
def keyOf (k : List Char) : Option Key :=
  (keys.find? fun e => k.map fold = e.1.toList).map Prod.snd

/-- `strconv.ParseUint(text, 10, 64)` of a JSON number, then `OverflowUint`; `none` is the error. -/
def uintText (bits : Nat) (t : List Byte) : Option Nat :=
  if t.all isDigit then
    let n := t.foldl (fun n b => 10 * n + (b.toNat - 48)) 0
    if n < 2 ^ bits then some n else none
  else none

/-- Storing a value in a field of kind uint: an error leaves it as it is, and so does `null`. -/
def setUint (bits old : Nat) : Json → Nat
  | .num t => (uintText bits t).getD old
  | _ => old

/-- Storing a value in a string. -/
def setString (old : List Char) : Json → List Char
  | .str s => s
  | _ => old

/-- A write to a Go map. -/
def put (d : List (List Char × Json)) (m : List Char × Json) : List (List Char × Json) :=
  if d.any (fun e => e.1 = m.1) then d.map (fun e => if e.1 = m.1 then m else e) else d ++ [m]

/-- Storing a value in the map: the members of an object are added to it, `null` removes it. -/
def setMap (old : List (List Char × Json)) : Json → List (List Char × Json)
  | .obj ms => ms.foldl put old
  | .null => []
  | _ => old

/-- `CanBoatMessage` (parsed_message.go:52-59). -/
structure Target where
  timestamp : List Char
  prio : Nat
  src : Nat
  dst : Nat
  pgn : Nat
  fields : List (List Char × Json)

/-- parsed_message.go:62 -/
def Target.zero : Target := ⟨[], 0, 0, 0, 0, []⟩

/-- decode.go, `object`: one member.  Members with other names are skipped; errors are kept for later. -/
def store (t : Target) (m : List Char × Json) : Target :=
  match keyOf m.1 with
  | some .timestamp => { t with timestamp := setString t.timestamp m.2 }
  | some .prio => { t with prio := setUint 8 t.prio m.2 }
  | some .src => { t with src := setUint 8 t.src m.2 }
  | some .dst => { t with dst := setUint 8 t.dst m.2 }
  | some .pgn => { t with pgn := setUint 32 t.pgn m.2 }
  | some .fields => { t with fields := setMap t.fields m.2 }
  | none => t

/-- parsed_message.go:62-63: `json.Unmarshal` into the zero `CanBoatMessage`; its error is ignored. -/
def unmarshal (limit : Option Nat) (line : List Byte) : Target :=
  match accepted limit line with
  | some (.obj ms) => ms.foldl store Target.zero
  | _ => Target.zero

/-! ## time.Parse -/

/-- The value of digits. -/
def value10 (l : List Char) : Nat := l.foldl (fun n c => 10 * n + (c.toNat - 48)) 0

/-- `2006` -/
def year4 : List Char → Option (Nat × List Char)
  | a :: b :: c :: d :: r => if [a, b, c, d].all Char.isDigit then some (value10 [a, b, c, d], r) else none
  | _ => none

/-- `getnum(value, true)` -/
def two : List Char → Option (Nat × List Char)
  | a :: b :: r => if a.isDigit && b.isDigit then some (value10 [a, b], r) else none
  | _ => none

/-- `getnum(value, false)` -/
def oneOrTwo : List Char → Option (Nat × List Char)
  | a :: b :: r =>
    if a.isDigit then if b.isDigit then some (value10 [a, b], r) else some (value10 [a], b :: r) else none
  | [a] => if a.isDigit then some (value10 [a], []) else none
  | [] => none

/-- A character of the layout (`skip`). -/
def lit (c : Char) : List Char → Option (List Char)
  | a :: r => if a = c then some r else none
  | [] => none

/-- `parseNanoseconds` of the digits after the point.  Before Go 1.17 more than nine digits are taken as nanoseconds. -/
def nanoseconds (newer : Bool) (ds : List Char) : Option Nat :=
  if newer then some (value10 (ds.take 9) * 10 ^ (9 - ds.length))
  else if value10 ds < 10 ^ 9 then some (value10 ds * 10 ^ (9 - ds.length)) else none

/-- `.999`: may be left out.  Since Go 1.17 a comma will do. -/
def fraction (newer : Bool) (s : List Char) : Option (Nat × List Char) :=
  match s with
  | p :: d :: r =>
    if (p = '.' ∨ newer = true ∧ p = ',') ∧ d.isDigit = true then
      (nanoseconds newer ((d :: r).takeWhile Char.isDigit)).map fun n => (n, (d :: r).dropWhile Char.isDigit)
    else some (0, s)
  | _ => some (0, s)

/-- `daysIn` -/
def daysIn (m y : Nat) : Nat :=
  if m = 2 then if y % 4 = 0 ∧ (y % 100 ≠ 0 ∨ y % 400 = 0) then 29 else 28
  else if m = 4 ∨ m = 6 ∨ m = 9 ∨ m = 11 then 30 else 31

/-- parsed_message.go:67 `time.Parse("2006-01-02T15:04:05.999", s)`: the time in UTC and its nanoseconds; `none` is an error. -/
def parseTime (newer : Bool) (s : List Char) : Option (Time × Nat) := do
  let (y, s) ← year4 s
  let s ← lit '-' s
  let (mo, s) ← two s
  guard (¬ (mo = 0 ∨ 12 < mo))
  let s ← lit '-' s
  let (d, s) ← two s
  let s ← lit 'T' s
  let (h, s) ← oneOrTwo s
  guard (h < 24)
  let s ← lit ':' s
  let (mi, s) ← two s
  guard (mi < 60)
  let s ← lit ':' s
  let (se, s) ← two s
  guard (se < 60)
  let (ns, s) ← fraction newer s
  guard (s = [])
  guard (¬ (d < 1 ∨ daysIn mo y < d))
  some (Time.date y mo d (3600 * h + 60 * mi + se : Nat) 0, ns)

/-- The zero `time.Time`, 1 January of the year 1 UTC. -/
def zeroTime : Time := ⟨-62135596800, 0⟩

/-- parsed_message.go:67: `hdr.Timestamp`; the error is ignored. -/
def timestamp (newer : Bool) (s : List Char) : Time × Nat := (parseTime newer s).getD (zeroTime, 0)

end Argo.Playback
