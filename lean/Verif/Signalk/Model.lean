import Verif.Nmea2k.Model

set_option autoImplicit false

/-!
# Model of package signalk (signalk/signalk.go)

Go strings are byte lists.  The values of a parsed message are of an arbitrary type `α`; Go's nil is
`none`.  What `fmt.Sprintf("%v", ·)`, the comparison with "" and the `time.Time` assertion give for a
value is a parameter (`Env`).  Time zones are fixed offsets; XML decoding is not modelled.
-/

namespace Argo.Signalk

open Argo

/-- A Go string. -/
abbrev Str := List Byte

/-- The bytes of a literal. -/
def bs (s : String) : Str := s.toByteArray.data.toList

/-- signalk.go:33-37. -/
structure Condition where
  op : Str
  field : Int
  value : Str
  deriving DecidableEq, Repr

/-- signalk.go:44-47 `fieldset`; each field (lines 39-42) is a pair of key and field index. -/
structure Fieldset where
  type : Str
  fields : List (Str × Int)
  deriving DecidableEq, Repr, Inhabited

/-- signalk.go:49-56 `parameterGroup`, with `multiplier` and `classifier` (63-71) flattened. -/
structure Group where
  pgn : Nat
  fieldset : Fieldset
  field : Str
  multId : Str
  multField : Str
  clsId : Str
  clsField : Str
  conditions : List Condition
  deriving DecidableEq, Repr, Inhabited

/-- signalk.go:73-77 `mapping`; the sentences are never used. -/
structure Mapping where
  path : Str
  groups : List Group
  deriving DecidableEq, Repr

/-! ## Library functions -/

/-- Value of a decimal digit. -/
def digit (c : Byte) : Option Nat := if 48 ≤ c ∧ c ≤ 57 then some (c.toNat - 48) else none

/-- Outcome of the digits of `strconv.ParseUint(s, 10, bits)`. -/
inductive Digits where
  | syntax
  | range
  | ok (n : Nat)
  deriving DecidableEq, Repr

/-- `strconv.ParseUint(s, 10, bits)`: the loop over the characters, which stops at the first fault. -/
def digits (bits : Nat) : Str → Nat → Digits
  | [], acc => .ok acc
  | c :: cs, acc => match digit c with
    | none => .syntax
    | some d => if acc * 10 + d < 2 ^ bits then digits bits cs (acc * 10 + d) else .range

/-- Go `strconv.ParseInt(s, 10, bits)`: value and whether there was no error.  A syntax error gives 0,
a range error the nearest bound. -/
def parseInt (s : Str) (bits : Nat) : Int × Bool :=
  let neg : Bool := s.head? == some 45
  let rest := if s.head? = some 43 ∨ s.head? = some 45 then s.tail else s
  if rest = [] then (0, false)
  else match digits bits rest 0 with
    | .syntax => (0, false)
    | .range => (if neg then -(2 ^ (bits - 1) : Int) else (2 ^ (bits - 1) : Int) - 1, false)
    | .ok n =>
      if neg then
        if n ≤ 2 ^ (bits - 1) then (-(n : Int), true) else (-(2 ^ (bits - 1) : Int), false)
      else
        if n < 2 ^ (bits - 1) then ((n : Int), true) else ((2 ^ (bits - 1) : Int) - 1, false)

/-- Does `s` start with `p`? -/
def hasPrefix (p s : Str) : Bool := p.isPrefixOf s

/-- Go `strings.Replace(s, old, new, 1)` for a non-empty `old`. -/
def replaceFirst (old new : Str) : Str → Str
  | [] => []
  | c :: cs => if hasPrefix old (c :: cs) then new ++ (c :: cs).drop old.length
    else c :: replaceFirst old new cs

/-- Go's `<` on strings: bytewise lexicographic. -/
def strLt : Str → Str → Bool
  | _, [] => false
  | [], _ :: _ => true
  | a :: as, b :: bs => if a = b then strLt as bs else decide (a < b)

/-- A `time.Time` in a zone with fixed offset `off` seconds east of UTC. -/
structure Time where
  sec : Int
  off : Int
  deriving DecidableEq, Repr

/-- Day number (days since 1970-01-01) of a date of the proleptic Gregorian calendar, `1 ≤ m ≤ 12`;
linear in the day.  (Go package time.) -/
def dayNumber (y m d : Int) : Int :=
  let y' := if m ≤ 2 then y - 1 else y
  let era := y' / 400
  let yoe := y' % 400
  let mp := (m + 9) % 12
  let doy := (153 * mp + 2) / 5 + d - 1
  let doe := yoe * 365 + yoe / 4 - yoe / 100 + doy
  era * 146097 + doe - 719468

/-- Year, month and day of a day number.  (Go package time.) -/
def civil (n : Int) : Int × Int × Int :=
  let z := n + 719468
  let era := z / 146097
  let doe := z % 146097
  let yoe := (doe - doe / 1460 + doe / 36524 - doe / 146096) / 365
  let doy := doe - (365 * yoe + yoe / 4 - yoe / 100)
  let mp := (5 * doy + 2) / 153
  let d := doy - (153 * mp + 2) / 5 + 1
  let m := if mp < 10 then mp + 3 else mp - 9
  let y := yoe + era * 400
  (if m ≤ 2 then y + 1 else y, m, d)

/-- Local day number of an instant. -/
def Time.day (t : Time) : Int := (t.sec + t.off) / 86400
/-- Local second of the day. -/
def Time.clock (t : Time) : Int := (t.sec + t.off) % 86400

/-- Go `time.Date(y, m, d, 0, 0, s, 0, loc)` with its normalisation of month and day. -/
def Time.date (y m d s off : Int) : Time :=
  ⟨(dayNumber (y + (m - 1) / 12) ((m - 1) % 12 + 1) 1 + (d - 1)) * 86400 + s - off, off⟩

/-- Go `t.AddDate(years, months, days)`. -/
def Time.addDate (t : Time) (years months days : Int) : Time :=
  let (y, m, d) := civil t.day
  Time.date (y + years) (m + months) (d + days) t.clock t.off

/-- The components shown by `t.Format(time.RFC3339)`. -/
structure Stamp where
  year : Int
  month : Int
  day : Int
  hour : Int
  minute : Int
  second : Int
  off : Int
  deriving DecidableEq, Repr

def Time.stamp (t : Time) : Stamp :=
  let (y, m, d) := civil t.day
  ⟨y, m, d, t.clock / 3600, t.clock / 60 % 60, t.clock % 60, t.off⟩

/-- What Go gives for values of type `α`. -/
structure Env (α : Type) where
  /-- `fmt.Sprintf("%v", v)` -/
  sprint : α → Str
  /-- `v == ""` -/
  isEmpty : α → Bool
  /-- `v.(time.Time)` -/
  asTime : α → Option Time
  /-- `t.Format(time.RFC3339)` from its components -/
  render : Stamp → Str

/-- `fmt.Sprintf("%v", v)` of an interface value. -/
def Env.text {α : Type} (env : Env α) : Option α → Str
  | some v => env.sprint v
  | none => bs "<nil>"

/-! ## Maps -/

/-- Read of a Go map. -/
def mapFind {β : Type} (d : List (Int × β)) (k : Int) : Option β :=
  (d.find? (fun e => e.1 = k)).map Prod.snd

/-- Write to a Go map. -/
def mapPut {β : Type} (d : List (Int × β)) (k : Int) (v : β) : List (Int × β) :=
  if d.any (fun e => e.1 = k) then d.map (fun e => if e.1 = k then (k, v) else e) else d ++ [(k, v)]

/-- `map[int]bool` -/
abbrev BoolMap := List (Int × Bool)

/-- `used[k]`: false when absent. -/
def BoolMap.get (u : BoolMap) (k : Int) : Bool := (mapFind u k).getD false

/-- `msg.Data`: field index to value (nil is `none`), in some order. -/
abbrev Data (α : Type) := List (Int × Option α)

/-- `msg.Data[k]`: nil when absent. -/
def Data.get {α : Type} (d : Data α) (k : Int) : Option α := (mapFind d k).join

/-- signalk.go:213-225 `merge`; both maps in arbitrary iteration order. -/
def merge (left right : BoolMap) : BoolMap :=
  let ret := left.foldl (fun r e => mapPut r e.1 e.2) []
  right.foldl (fun r e => mapPut r e.1 e.2) ret

/-! ## The rest of signalk.go -/

/-- signalk.go:309-311 `toDotNotation`; slicing panics on a text of fewer than two bytes. -/
def toDotNotation (s : Str) : GoM Str :=
  let r := s.map (fun c => if c = 47 then 46 else c)
  if r.length < 2 then .error .slice else .ok (r.drop 2)

/-- signalk.go:251-258 `toMap` followed by a lookup of a key: the last field with the key, else 0. -/
def Fieldset.lookup (fs : Fieldset) (key : Str) : Int :=
  match fs.fields.reverse.find? (fun e => e.1 = key) with
  | some e => e.2
  | none => 0

variable {α : Type}

/-- signalk.go:263-271 `hasAll`. -/
def Fieldset.hasAll (env : Env α) (fs : Fieldset) (data : Data α) (used : BoolMap) : Bool :=
  fs.fields.all fun f =>
    !(used.get f.2 || (match data.get f.2 with | some v => env.isEmpty v | none => true))

/-- signalk.go:230-248 `parse`: text and map of used fields (nil is the empty map). -/
def Fieldset.parse (env : Env α) (fs : Fieldset) (data : Data α) : Str × BoolMap :=
  let date := fs.lookup (bs "date")
  let time := fs.lookup (bs "time")
  if fs.type = bs "datetime" then
    match (data.get date).bind env.asTime, (data.get time).bind env.asTime with
    | some dt, some tm =>
      let (y, m, d) := civil dt.day
      let ts := tm.addDate (y - 1970) (m - 1) (d - 1)
      (env.render ts.stamp, mapPut (mapPut [] date true) time true)
    | _, _ => ([], [])
  else ([], [])

/-- signalk.go:276-307 `conditionsMatch`. -/
def conditionsMatch (env : Env α) (data : Data α) : List Condition → Bool
  | [] => true
  | x :: xs =>
    let ls := env.text (data.get x.field)
    if x.op = bs "eq" then if ls ≠ x.value then false else conditionsMatch env data xs
    else if x.op = bs "lt" then if ¬ strLt ls x.value then false else conditionsMatch env data xs
    else if x.op = bs "gt" then if ¬ strLt x.value ls then false else conditionsMatch env data xs
    else if x.op = bs "le" then if strLt x.value ls then false else conditionsMatch env data xs
    else if x.op = bs "ge" then if strLt ls x.value then false else conditionsMatch env data xs
    else true

/-- A value of a delta (signalk.go:90-93): a field's value or the text of a fieldset. -/
inductive Value (α : Type) where
  | plain (v : α)
  | text (s : Str)
  deriving Repr, DecidableEq

/-- The message given to Delta: PGN, source, index of its definition, data. -/
structure Msg (α : Type) where
  pgn : Nat
  source : Byte
  index : Nat
  data : Data α

/-- `usedFields` and `upd.Values`. -/
structure Acc (α : Type) where
  used : BoolMap
  values : List (Str × Value α)

/-- signalk.go:139-158: the path of a group for a field, the multiplier's field index and the
number of repeating fields.  `reps` holds `PgnList[·].RepeatingFields`. -/
def groupPath (env : Env α) (reps : List Nat) (msg : Msg α) (fieldId : Int) (mp : Mapping) (g : Group) :
    GoM (Str × Int × Nat) := do
  let path ← toDotNotation mp.path
  let rpt ← Nmea2k.goIndex reps msg.index
  let path :=
    if g.clsId ≠ [] ∧ g.clsField ≠ [] then
      replaceFirst (bs "{" ++ g.clsId ++ bs "}")
        (env.text (msg.data.get (parseInt g.clsField 32).1)) path
    else path
  if g.multId ≠ [] ∧ g.multField ≠ [] then
    if rpt = 0 then .error .divZero
    else
      let mlt := (parseInt g.multField 32).1
      let sub := (fieldId - mlt).tdiv rpt * rpt + mlt
      return (replaceFirst (bs "{" ++ g.multId ++ bs "}") (env.text (msg.data.get sub)) path, mlt, rpt)
  else return (path, -1, rpt)

/-- signalk.go:159-162: does the group's field index select this data field? -/
def selects (g : Group) (fieldId mlt : Int) (rpt : Nat) : Bool :=
  let p := parseInt g.field 64
  p.2 && (decide (p.1 > mlt ∧ mlt > -1 ∧ p.1 = fieldId.tmod rpt) || decide (p.1 = fieldId))

/-- signalk.go:138-186: one parameter group of one mapping for one data field. -/
def groupStep (env : Env α) (reps : List Nat) (msg : Msg α) (fieldId : Int) (field : Option α)
    (mp : Mapping) (g : Group) (acc : Acc α) : GoM (Acc α) :=
  if g.pgn ≠ msg.pgn then .ok acc
  else do
    let (path, mlt, rpt) ← groupPath env reps msg fieldId mp g
    if selects g fieldId mlt rpt && !acc.used.get fieldId then
      if conditionsMatch env msg.data g.conditions then
        let used := mapPut acc.used fieldId true
        match field with
        | some v => if path ≠ [] then return ⟨used, acc.values ++ [(path, .plain v)]⟩ else return ⟨used, acc.values⟩
        | none => return ⟨used, acc.values⟩
      else return acc
    else if g.fieldset.fields ≠ [] then
      if g.fieldset.hasAll env msg.data acc.used then do
        let (s, u) := g.fieldset.parse env msg.data
        let p ← toDotNotation mp.path
        if p ≠ [] then return ⟨merge acc.used u, acc.values ++ [(p, .text s)]⟩
        else return ⟨merge acc.used u, acc.values⟩
      else return acc
    else return acc

/-- signalk.go:135-189: the three nested loops; `msg.Data` is iterated in the order of the list. -/
def deltaLoop (env : Env α) (reps : List Nat) (maps : List Mapping) (msg : Msg α) :
    List (Int × Option α) → Acc α → GoM (Acc α)
  | [], acc => .ok acc
  | (fieldId, field) :: rest, acc => do
    let acc ← maps.foldlM (fun acc mp =>
      mp.groups.foldlM (fun acc g => groupStep env reps msg fieldId field mp g acc) acc) acc
    deltaLoop env reps maps msg rest acc

/-- An update of a delta (signalk.go:79-99): PGN, source and values. -/
structure Update (α : Type) where
  pgn : Nat
  source : Byte
  values : List (Str × Value α)
  deriving DecidableEq

/-- signalk.go:118-203 `Delta`; `none` is the returned error.  Context, device and timestamp are
constants or the clock and not modelled. -/
def delta (env : Env α) (reps : List Nat) (maps : List Mapping) (msg : Msg α) :
    GoM (Option (List (Update α))) := do
  let acc ← deltaLoop env reps maps msg msg.data ⟨[], []⟩
  if acc.values ≠ [] then return some [⟨msg.pgn, msg.source, acc.values⟩] else return none

end Argo.Signalk
