import Verif.Main.Model

set_option autoImplicit false

/-!
# The running program: interface goroutines, consumer goroutine, hubs and clients (main/argo.go)

A labelled transition system.  Every interface goroutine (argo.go:225-320 `processInterface`) alternates
between reading a message and handing it over `txch`, which is unbuffered; the consumer goroutine takes a
message, computes its effects (`iteration`) and performs them one by one; a broadcast is a rendezvous
with the hub goroutine, which must be at the top of its loop.  Simplification: a panic of `Print` or
`Delta` is raised when the message is taken, not after the statistics broadcast; it ends the process
either way.
-/

namespace Argo.Main

open Argo

/-- JSON objects of the counters, as the statistics hub broadcasts them. -/
abbrev Counters := List (String × UInt64)

/-- The parameters of a run: the sort routine, the options, `Print` and `Delta`. -/
structure Program (δ β : Type) where
  sort : List String → List String
  opts : Opts
  out : Outputs
  print : Message δ → GoM Unit
  delta : Message δ → GoM (Option β)

structure Sys (δ β : Type) where
  /-- interface `i` is blocked in `txch <- m`, argo.go:278, 294 and 308 -/
  pending : Nat → Option (Message δ)
  /-- the counters -/
  stats : Stats
  /-- effects of the current message still to be performed; empty at argo.go:161 `res := <-txch` -/
  todo : List (Effect β)
  /-- effects performed, oldest first -/
  emitted : List (Effect β)
  /-- messages taken from `txch`, with the interface they came from (history variable) -/
  consumed : List (Nat × Message δ)
  /-- `websocket_hub` and its clients -/
  ws : Hub.State β
  /-- `statistics_hub` and its clients -/
  st : Hub.State Counters

inductive SysEvent (δ β : Type) where
  /-- interface `i` reads: a message, or an error that is logged and skipped (argo.go:272-282, 291-298,
  304-313) -/
  | read (i : Nat) (r : Option (Message δ))
  /-- the consumer receives from interface `i` -/
  | take (i : Nat)
  /-- the consumer logs, draws the screen or publishes -/
  | act
  /-- `statistics_hub.broadcast <- b` -/
  | statistics (c : Counters) (order : List Hub.Id)
  /-- `websocket_hub.broadcast <- bytes` -/
  | delta (b : β) (order : List Hub.Id)
  /-- a step of the WebSocket hub or one of its clients -/
  | ws (e : Hub.Event β)
  /-- a step of the statistics hub or one of its clients -/
  | st (e : Hub.Event Counters)

/-- Before the first message. -/
def Sys.init {δ β : Type} : Sys δ β := ⟨fun _ => none, Stats.empty, [], [], [], Hub.init, Hub.init⟩

/-- Not a broadcast: those come from the consumer only. -/
def own {γ : Type} : Hub.Event γ → Bool
  | .broadcast _ _ => false
  | _ => true

def setPending {δ : Type} (f : Nat → Option (Message δ)) (i : Nat) (v : Option (Message δ)) :
    Nat → Option (Message δ) := fun j => if j = i then v else f j

variable {δ β : Type} [DecidableEq β]

/-- One step; `none` when the event cannot happen in this state. -/
def sysStep (P : Program δ β) (s : Sys δ β) : SysEvent δ β → Option (GoM (Sys δ β))
  | .read i r =>
    match s.pending i with
    | some _ => none
    | none => some (.ok { s with pending := setPending s.pending i r })
  | .take i =>
    match s.pending i, s.todo with
    | some m, [] =>
      match iteration P.sort P.opts P.out P.print P.delta s.stats m with
      | .error p => some (.error p)
      | .ok (stats, effects) =>
        some (.ok { s with pending := setPending s.pending i none, stats := stats, todo := effects,
                           consumed := s.consumed ++ [(i, m)] })
    | _, _ => none
  | .act =>
    match s.todo with
    | .logged h :: rest => some (.ok { s with todo := rest, emitted := s.emitted ++ [.logged h] })
    | .screen l :: rest => some (.ok { s with todo := rest, emitted := s.emitted ++ [.screen l] })
    | .publish b :: rest => some (.ok { s with todo := rest, emitted := s.emitted ++ [.publish b] })
    | _ => none
  | .statistics c order =>
    match s.todo with
    | .statistics c' :: rest =>
      if c = c' then
        match Hub.step s.st (.broadcast c order) with
        | some (.ok st) => some (.ok { s with todo := rest, emitted := s.emitted ++ [.statistics c], st := st })
        | some (.error p) => some (.error p)
        | none => none
      else none
    | _ => none
  | .delta b order =>
    match s.todo with
    | .delta b' :: rest =>
      if b = b' then
        match Hub.step s.ws (.broadcast b order) with
        | some (.ok ws) => some (.ok { s with todo := rest, emitted := s.emitted ++ [.delta b], ws := ws })
        | some (.error p) => some (.error p)
        | none => none
      else none
    | _ => none
  | .ws e =>
    if own e then
      match Hub.step s.ws e with
      | some (.ok ws) => some (.ok { s with ws := ws })
      | some (.error p) => some (.error p)
      | none => none
    else none
  | .st e =>
    if own e then
      match Hub.step s.st e with
      | some (.ok st) => some (.ok { s with st := st })
      | some (.error p) => some (.error p)
      | none => none
    else none

/-- A schedule. -/
def sysExec (P : Program δ β) (s : Sys δ β) : List (SysEvent δ β) → Option (GoM (Sys δ β))
  | [] => some (.ok s)
  | e :: es => match sysStep P s e with
    | some (.ok s') => sysExec P s' es
    | r => r

end Argo.Main
