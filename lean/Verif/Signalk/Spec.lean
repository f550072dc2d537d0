import Verif.Signalk.Model

set_option autoImplicit false

/-! # Specification vocabulary for package signalk -/

namespace Argo.Signalk.Spec

open Argo Argo.Signalk

variable {α : Type}

/-- The text of a field: as `fmt` prints its value (`sprint`), `<nil>` if it has none. -/
def textOf {α : Type} (env : Env α) : Option α → Str
  | some v => env.sprint v
  | none => bs "<nil>"

@[simp] theorem textOf_eq (env : Env α) (o : Option α) : textOf env o = env.text o := rfl

/-- The mapping path with dots for slashes and without its first two bytes. -/
def dotted (s : Str) : Str := (s.map (fun c => if c = 47 then 46 else c)).drop 2

/-- The group has a classifier (multiplier). -/
def hasCls (g : Group) : Prop := g.clsId ≠ [] ∧ g.clsField ≠ []
def hasMult (g : Group) : Prop := g.multId ≠ [] ∧ g.multField ≠ []
instance (g : Group) : Decidable (hasCls g) := inferInstanceAs (Decidable (_ ∧ _))
instance (g : Group) : Decidable (hasMult g) := inferInstanceAs (Decidable (_ ∧ _))

/-- The multiplier's field index; -1 without multiplier. -/
def multField (g : Group) : Int := if hasMult g then (parseInt g.multField 32).1 else -1

/-- The data field holding the multiplier of the repetition that data field `k` belongs to. -/
def multIndex (g : Group) (rpt : Nat) (k : Int) : Int :=
  (k - multField g).tdiv rpt * rpt + multField g

/-- The path reported for data field `k`: placeholders replaced by the texts of the classifier field
and of the multiplier field of the same repetition. -/
def pathFor (env : Env α) (data : Data α) (rpt : Nat) (k : Int) (mp : Mapping) (g : Group) : Str :=
  let p := dotted mp.path
  let p := if hasCls g then
      replaceFirst (bs "{" ++ g.clsId ++ bs "}") (textOf env (data.get (parseInt g.clsField 32).1)) p
    else p
  if hasMult g then replaceFirst (bs "{" ++ g.multId ++ bs "}") (textOf env (data.get (multIndex g rpt k))) p
  else p

/-- The group names data field `k`: directly, or as a repetition of its field (a field after the
multiplier with the same index modulo the size of the repeating group). -/
def names (g : Group) (rpt : Nat) (k : Int) : Prop :=
  (parseInt g.field 64).2 = true ∧
    ((parseInt g.field 64).1 = k ∨
     (hasMult g ∧ 0 ≤ multField g ∧ multField g < (parseInt g.field 64).1 ∧
      (parseInt g.field 64).1 = k.tmod rpt))

instance (g : Group) (rpt : Nat) (k : Int) : Decidable (names g rpt k) := inferInstanceAs (Decidable (_ ∧ _))

/-- The operations the mapping file may use. -/
def knownOp (op : Str) : Bool :=
  op = bs "eq" ∨ op = bs "lt" ∨ op = bs "gt" ∨ op = bs "le" ∨ op = bs "ge"

/-- A condition with a known operation holds: its field's text compares (bytewise) as it says. -/
def holds (env : Env α) (data : Data α) (c : Condition) : Prop :=
  (c.op = bs "eq" → textOf env (data.get c.field) = c.value) ∧
  (c.op = bs "lt" → textOf env (data.get c.field) < c.value) ∧
  (c.op = bs "gt" → c.value < textOf env (data.get c.field)) ∧
  (c.op = bs "le" → ¬ c.value < textOf env (data.get c.field)) ∧
  (c.op = bs "ge" → ¬ textOf env (data.get c.field) < c.value)

/-- All conditions before the first one with an unknown operation hold. -/
def accepted (env : Env α) (data : Data α) (cs : List Condition) : Prop :=
  ∀ c ∈ cs.takeWhile (fun c => knownOp c.op), holds env data c

/-- All pairs of mapping and parameter group in file order. -/
def pairs (maps : List Mapping) : List (Mapping × Group) :=
  maps.flatMap (fun mp => mp.groups.map (fun g => (mp, g)))

/-- The pair applies to data field `k` of the message. -/
def applies (env : Env α) (msg : Msg α) (rpt : Nat) (k : Int) (pg : Mapping × Group) : Prop :=
  pg.2.pgn = msg.pgn ∧ names pg.2 rpt k ∧ accepted env msg.data pg.2.conditions

open Classical in
/-- What a data field (index and value) contributes: its value under the path of the first pair in file
order that applies to it, unless the value is nil or the path empty. -/
noncomputable def contribution (env : Env α) (ps : List (Mapping × Group)) (msg : Msg α) (rpt : Nat)
    (e : Int × Option α) : Option (Str × α) :=
  (ps.find? (fun pg => decide (applies env msg rpt e.1 pg))).bind fun pg =>
    e.2.bind fun v =>
      if pathFor env msg.data rpt e.1 pg.1 pg.2 = [] then none
      else some (pathFor env msg.data rpt e.1 pg.1 pg.2, v)

/-- The values of a delta that come from single fields. -/
def plainPart (vs : List (Str × Value α)) : List (Str × α) :=
  vs.filterMap fun e => match e.2 with | .plain v => some (e.1, v) | .text _ => none

/-- The texts of a delta, which come from fieldsets. -/
def textPart (vs : List (Str × Value α)) : List (Str × Str) :=
  vs.filterMap fun e => match e.2 with | .plain _ => none | .text s => some (e.1, s)

/-- Data fields that a fieldset of this PGN may consume. -/
def consumed (ps : List (Mapping × Group)) (pgn : Nat) (k : Int) : Prop :=
  ∃ pg ∈ ps, pg.2.pgn = pgn ∧ pg.2.fieldset.fields ≠ [] ∧
    (k = pg.2.fieldset.lookup (bs "date") ∨ k = pg.2.fieldset.lookup (bs "time"))

/-- Every field of the fieldset has a non-nil, non-empty value. -/
def complete (env : Env α) (data : Data α) (fs : Fieldset) : Prop :=
  ∀ f ∈ fs.fields, ∃ v, data.get f.2 = some v ∧ env.isEmpty v = false

/-- A pair that makes Delta panic on any message of the PGN with that definition index. -/
def bad (reps : List Nat) (msg : Msg α) (pg : Mapping × Group) : Prop :=
  pg.2.pgn = msg.pgn ∧
    (pg.1.path.length < 2 ∨ reps.length ≤ msg.index ∨ (hasMult pg.2 ∧ reps[msg.index]? = some 0))

end Argo.Signalk.Spec
