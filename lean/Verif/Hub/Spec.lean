import Verif.Hub.Model

set_option autoImplicit false

/-! # Specification vocabulary for the hub: functions of the schedule only -/

namespace Argo.Hub.Spec

open Argo.Hub

variable {Msg : Type} [DecidableEq Msg]

/-- Messages broadcast in a schedule. -/
def broadcasts : List (Event Msg) → List Msg
  | [] => []
  | .broadcast m _ :: es => m :: broadcasts es
  | _ :: es => broadcasts es

/-- Messages broadcast since the registration of `c`. -/
def since (c : Id) : List (Event Msg) → List Msg
  | [] => []
  | .register d :: es => if d = c then broadcasts es else since c es
  | _ :: es => since c es

/-- `c` was registered. -/
def registered (c : Id) (es : List (Event Msg)) : Prop := Event.register c ∈ es
instance (c : Id) (es : List (Event Msg)) : Decidable (registered c es) := inferInstanceAs (Decidable (_ ∈ _))

/-- Nobody asks to unregister (in argo nobody ever does). -/
def noUnregister (es : List (Event Msg)) : Prop := ∀ c, Event.unregister c ∉ es

/-- The connections named in register and unregister requests. -/
def touched : List (Event Msg) → List Id
  | [] => []
  | .register c :: es => c :: touched es
  | .unregister c :: es => c :: touched es
  | _ :: es => touched es

/-- Every registration is of a new connection: one not named in a request before. -/
def fresh : List (Event Msg) → Prop
  | es => ∀ a b c, es = a ++ .register c :: b → c ∉ touched a

end Argo.Hub.Spec
