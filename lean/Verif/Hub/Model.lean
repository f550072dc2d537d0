import Verif.Go

set_option autoImplicit false

/-!
# Model of the WebSocket hub (main/websocket_server.go)

A labelled transition system: the hub goroutine, the clients' write pumps, and the requests that arrive
on the hub's three unbuffered channels.  A request is one event (the rendezvous of sender and hub), which
the hub accepts only between broadcasts; the loop over the connections takes one step per connection, so
client reads interleave with it.  A `read` is the write pump taking a message from the channel; what the pump
does with it, timers, pings and the bytes on the network are in `Verif/Socket`.
-/

namespace Argo.Hub

open Argo

/-- A connection (pointer identity). -/
abbrev Id := Nat
/-! Messages are of any type: their content does not matter to the hub. -/

variable {Msg : Type} [DecidableEq Msg]

/-- Capacity of `connection.send`, websocket_server.go:149 and 171. -/
def cap : Nat := 256

/-- A buffered Go channel. -/
structure Chan (Msg : Type) where
  buf : List Msg
  closed : Bool
  deriving DecidableEq, Repr

/-- websocket_server.go:109-128: where the hub goroutine is.  `sending m todo`: inside the loop of lines
118-125, with the connections not yet visited. -/
inductive Pc (Msg : Type) where
  | idle
  | sending (m : Msg) (todo : List Id)
  deriving DecidableEq, Repr

/-- State: `h.connections`, the `send` channels, what each write pump has taken, whether it has seen the
channel closed (websocket_server.go:94-97), and the hub's position. -/
structure State (Msg : Type) where
  conns : List Id
  chan : Id → Chan Msg
  got : Id → List Msg
  saw : Id → Bool
  pc : Pc Msg

inductive Event (Msg : Type) where
  /-- a send on `h.register` -/
  | register (c : Id)
  /-- a send on `h.unregister` -/
  | unregister (c : Id)
  /-- a send on `h.broadcast`; `order` is the order in which Go walks the map -/
  | broadcast (m : Msg) (order : List Id)
  /-- the hub visits the next connection, or leaves the loop -/
  | hub
  /-- the write pump of `c` receives from `c.send` (websocket_server.go:93-100) -/
  | read (c : Id)
  deriving DecidableEq, Repr

/-- Function update. -/
def upd {β : Type} (f : Id → β) (c : Id) (v : β) : Id → β := fun d => if d = c then v else f d

/-- Before any connection: channels are made (empty, open) by the request handlers. -/
def init : State Msg := ⟨[], fun _ => ⟨[], false⟩, fun _ => [], fun _ => false, .idle⟩

/-- Go map insertion / deletion of a key. -/
def insertId (l : List Id) (c : Id) : List Id := if c ∈ l then l else l ++ [c]

/-- One visit of the loop, websocket_server.go:119-125: the non-blocking send, or close and delete. -/
def visit (s : State Msg) (m : Msg) (todo : List Id) (c : Id) : GoM (State Msg) :=
  if (s.chan c).closed then .error .sendClosed
  else if (s.chan c).buf.length < cap then
    .ok { s with chan := upd s.chan c ⟨(s.chan c).buf ++ [m], false⟩, pc := .sending m todo }
  else
    .ok { s with chan := upd s.chan c ⟨(s.chan c).buf, true⟩, conns := s.conns.erase c,
                 pc := .sending m todo }

/-- One step; `none` when the event cannot happen. -/
def step (s : State Msg) : Event Msg → Option (GoM (State Msg))
  -- websocket_server.go:112-113
  | .register c => if s.pc = .idle then some (.ok { s with conns := insertId s.conns c }) else none
  -- websocket_server.go:114-116
  | .unregister c =>
    if s.pc = .idle then
      if (s.chan c).closed then some (.error .closeClosed)
      else some (.ok { s with conns := s.conns.erase c, chan := upd s.chan c ⟨(s.chan c).buf, true⟩ })
    else none
  -- websocket_server.go:117-118
  | .broadcast m order =>
    if s.pc = .idle ∧ order.Perm s.conns then some (.ok { s with pc := .sending m order }) else none
  | .hub =>
    match s.pc with
    | .idle => none
    | .sending _ [] => some (.ok { s with pc := .idle })
    | .sending m (c :: todo) => some (visit s m todo c)
  | .read c =>
    match (s.chan c).buf with
    | m :: rest => some (.ok { s with chan := upd s.chan c ⟨rest, (s.chan c).closed⟩,
                                      got := upd s.got c (s.got c ++ [m]) })
    | [] => if (s.chan c).closed then some (.ok { s with saw := upd s.saw c true }) else none

/-- A schedule: `none` if some event cannot happen, an error if the hub panics. -/
def exec (s : State Msg) : List (Event Msg) → Option (GoM (State Msg))
  | [] => some (.ok s)
  | e :: es => match step s e with
    | some (.ok s') => exec s' es
    | r => r

end Argo.Hub
