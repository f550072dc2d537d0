import Verif.Config.Model
import Mathlib.Tactic.Push
import Mathlib.Tactic.ByContra

set_option autoImplicit false

/-!
# Data races (C111)

Which goroutine of the process touches which shared variable, and what orders them.  A Go program with a data race has
no guaranteed behaviour: the run-time system ends it when it notices unordered accesses to a map ("concurrent map read
and map write"), and a slice may be seen with a length that does not fit its array.
-/

namespace Argo.Main.Races

open Argo
open Argo.Config (Setting settings)

/-! ## Model -/

/-- The goroutines of the process. -/
inductive Gor where
  /-- argo.go:61-223 -/
  | main
  /-- argo.go:147 `websocket_hub.run` -/
  | hub
  /-- argo.go:149 `statistics_hub.run` -/
  | statHub
  /-- argo.go:151 `WebSocketServer` -/
  | server
  /-- argo.go:154 `ApiServer` -/
  | api
  /-- argo.go:155 `UiServer` -/
  | ui
  /-- argo.go:158-211: the goroutine that takes the messages -/
  | consumer
  /-- argo.go:215 `processInterface` of the k-th interface -/
  | iface (k : Nat)
  /-- the goroutine net/http starts for the n-th accepted connection -/
  | conn (n : Nat)
  deriving DecidableEq, Repr

/-- The variables several goroutines can get at. -/
inductive Var where
  /-- a field of `sysconf`, argo.go:58 -/
  | setting (s : Setting)
  /-- the map `sysconf.Interfaces` -/
  | interfaces
  /-- `fast_packets`, canframe.go:43 -/
  | fastPackets
  /-- the map `partial_messages`, canframe.go:40 -/
  | partials
  /-- the map `statLog` and the list `statPgns`, argo.go:115-116 -/
  | counters
  /-- `mapData`, argo.go:118 -/
  | mappings
  /-- `websocket_hub.connections` -/
  | clients
  /-- `statistics_hub.connections` -/
  | statClients
  /-- the routes of the router of `UiServer`, ui_server.go:208 -/
  | router
  /-- the routes of the router of `ApiServer`, api_server.go:165 -/
  | apiRouter
  deriving DecidableEq, Repr

/-- What a goroutine does, as far as memory and ordering are concerned. -/
inductive Act where
  | rd (v : Var)
  | wr (v : Var)
  /-- the `go` statement -/
  | spawn (g : Gor)
  /-- a send on an unbuffered channel that the named goroutine receives -/
  | talk (g : Gor)
  /-- `http.Handle`: with the lock of `http.DefaultServeMux` held for writing -/
  | mount
  /-- `http.DefaultServeMux` looks a handler up: with its lock held for reading -/
  | lookup
  deriving DecidableEq, Repr

/-- Something that happened. -/
structure Event where
  who : Gor
  act : Act
  deriving DecidableEq, Repr

/-- The types of interfaces, argo.go:255-318. -/
inductive Kind where
  | canusb | actisense | file
  deriving DecidableEq, Repr

/-- How the process was started. -/
structure Setup where
  /-- `sysconf.Server.EnableWebsockets` -/
  websockets : Bool
  /-- the configured interfaces, in the order `range` gives them -/
  kinds : List Kind
  /-- the number of PGNs in the table with more than 8 bytes -/
  fast : Nat

/-- All fields of `sysconf` and its map are read. -/
def readAll : List Act := settings.map (fun s => .rd (.setting s)) ++ [.rd .interfaces]

/-- argo.go:61-223.  `ReadConfig` assigns all of `sysconf` (85); the level of the command line (90-92), the map file
(118), the broker (125-139), the port (143) and `EnableWebsockets` (145) are read; goroutines are started; the map of
interfaces is read for each step of `range` (213-216). -/
def mainCode (s : Setup) : List Act :=
  settings.map (fun x => .wr (.setting x)) ++ [.wr .interfaces, .wr (.setting .logLevel), .rd (.setting .logLevel),
    .wr .counters, .rd (.setting .mapFile), .wr .mappings, .rd (.setting .mqttEnable), .rd (.setting .mqttHost),
    .rd (.setting .mqttPort), .rd (.setting .clientId), .rd (.setting .username), .rd (.setting .password),
    .rd (.setting .mqttUseTls), .rd (.setting .serverPort), .rd (.setting .enableWebsockets)] ++
    ((if s.websockets then [.spawn .hub, .spawn .statHub, .spawn .server] else []) ++
    [.spawn .api, .spawn .ui, .spawn .consumer] ++
    ((List.range s.kinds.length).flatMap fun k => [.rd .interfaces, .spawn (.iface k)]) ++ [.rd .interfaces])

/-- Requests, by what their handlers touch. -/
inductive Request where
  /-- answered by no handler of the two routers -/
  | other
  /-- the rest of the UI: the router only (uuid, apps, files) -/
  | ui
  /-- `indexHandler`, ui_server.go:185-194: the template gets all of `sysconf` -/
  | page
  /-- a POST handled by `adminHandler`, ui_server.go:95-116: `mergo.Merge` reads all of `sysconf` and writes the fields
  that were unset and are posted (`fills`), and the map of interfaces if an entry is new; then everything is written to
  the file -/
  | post (fills : List Setting) (interfaces : Bool)
  /-- `appInstallHandlerFactory`, ui_server.go:153-183: a route is added -/
  | install
  /-- the API but `control/send`: the table only, which nobody writes -/
  | api
  /-- `SendMessageHandler`, api_server.go:148-162: waits forever (C72) -/
  | control
  /-- `serveWs`: the client is handed to the hub; the connection serves no more requests -/
  | stream
  /-- `handleStats` -/
  | stats
  deriving DecidableEq, Repr

/-- What one line from the adapter does, canport.go:285-345. -/
structure Line where
  /-- the frame belongs to a fast packet, so the map of partial messages is used (all but single frames) -/
  fast : Bool
  /-- an entry is written or deleted -/
  writes : Bool
  /-- a message is complete and handed over, argo.go:281 -/
  hands : Bool
  deriving DecidableEq, Repr

/-- What the environment decides when a goroutine starts, receives or goes around its loop. -/
inductive Choice where
  | unit
  /-- of each PGN to be added whether `AddFastPacket` appends it -/
  | registered (l : List Bool)
  /-- the number of the next connection -/
  | accept (n : Nat)
  | line (l : Line)
  /-- whether the message taken has a delta -/
  | message (mapped : Bool)
  | request (r : Request)
  deriving DecidableEq, Repr

/-- The code of a request and whether the connection then waits for another one. -/
def Request.code : Request → List Act × Bool
  | .other => ([.lookup], true)
  | .ui => ([.lookup, .rd .router], true)
  | .page => (.lookup :: .rd .router :: readAll, true)
  | .post fills i => (.lookup :: .rd .router :: (readAll ++ fills.map (fun s => .wr (.setting s)) ++
      (if i then [.wr .interfaces] else []) ++ readAll), true)
  | .install => ([.lookup, .rd .router, .wr .router], true)
  | .api => ([.lookup, .rd .apiRouter], true)
  | .control => ([.lookup, .rd .apiRouter], false)
  | .stream => ([.lookup, .talk .hub], false)
  | .stats => ([.lookup, .talk .statHub], false)

/-- Who must have called `http.Handle` for a request to reach its handler.  (The handlers of WebSockets are mounted by
the server before it listens.) -/
def Request.needs : Request → Option Gor
  | .ui | .page | .post .. | .install => some .ui
  | .api | .control => some .api
  | _ => none

/-- The code of a line. -/
def Line.code (l : Line) : List Act :=
  .rd .fastPackets :: ((if l.fast then [.rd .partials] else []) ++ (if l.fast && l.writes then [.wr .partials] else []) ++
    (if l.hands then [.talk .consumer] else []))

/-- canframe.go:46-58 `AddFastPacket` for each of the PGNs, argo.go:258-263. -/
def registration (l : List Bool) : List Act :=
  l.flatMap fun appends => if appends then [.rd .fastPackets, .wr .fastPackets] else [.rd .fastPackets]

/-- What a goroutine does when it is started, and whether it then loops. -/
def startCode (s : Setup) : Gor → Choice → Option (List Act × Bool)
  | .hub, _ | .statHub, _ | .server, _ | .consumer, _ | .conn _, _ => some ([], true)
  -- api_server.go:164-172
  | .api, _ => some ([.wr .apiRouter, .mount], false)
  -- ui_server.go:207-226
  | .ui, _ => some ([.wr .router, .rd (.setting .assetPath), .wr .router, .mount, .rd .router], false)
  | .iface k, c =>
    match s.kinds[k]?, c with
    -- argo.go:255-271
    | some .canusb, .registered l => if l.length = s.fast then some (registration l, true) else none
    | some .actisense, _ | some .file, _ => some ([], true)
    | _, _ => none
  | .main, _ => none

/-- What a goroutine at the top of its loop does by itself: the server accepts a connection, a connection serves a
request, an interface reads. -/
def loopCode (s : Setup) (mounted : List Gor) : Gor → Choice → Option (List Act × Bool)
  -- net/http `Server.Serve`
  | .server, .accept n => some ([.spawn (.conn n)], true)
  | .conn _, .request r =>
    match r.needs with
    | none => some r.code
    | some g => if g ∈ mounted then some r.code else none
  | .iface k, c =>
    match s.kinds[k]?, c with
    | some .canusb, .line l => some (l.code, true)
    | some .actisense, _ | some .file, _ => some ([.talk .consumer], true)
    | _, _ => none
  | _, _ => none

/-- What a goroutine at the top of its loop does with something received. -/
def reactCode (s : Setup) : Gor → Choice → Option (List Act × Bool)
  -- websocket_server.go:107-126
  | .hub, _ => some ([.wr .clients], true)
  | .statHub, _ => some ([.wr .statClients], true)
  -- argo.go:162-209
  | .consumer, .message mapped =>
    some ([.wr .counters, .rd (.setting .enableWebsockets)] ++ (if s.websockets then [.talk .statHub] else []) ++
      [.rd .mappings] ++ (if mapped then .rd (.setting .enableWebsockets) ::
        ((if s.websockets then [.talk .hub] else []) ++ [.rd (.setting .mqttEnable), .rd (.setting .channel)]) else []),
      true)
  | _, _ => none

/-- Where a goroutine is. -/
inductive Pc where
  /-- not started -/
  | idle
  /-- what it does next, and whether it then goes around its loop -/
  | run (todo : List Act) (again : Bool)
  deriving DecidableEq, Repr

/-- The process. -/
structure State where
  pc : Gor → Pc
  /-- who has called `http.Handle` -/
  mounted : List Gor
  /-- everything that happened, oldest first -/
  trace : List Event

/-- `pc` with one goroutine moved. -/
def move (pc : Gor → Pc) (g : Gor) (p : Pc) : Gor → Pc := fun x => if x = g then p else pc x

/-- The next step of a goroutine; `none` if it cannot take one.  Simplifications: the server accepts connections without
limit; a connection is served by the goroutine `conn n` alone; what libraries synchronise besides (the log, the timers,
the MQTT client) is left out. -/
def step (s : Setup) (st : State) (g : Gor) (c : Choice) : Option State :=
  match st.pc g with
  | .idle => none
  | .run [] false => none
  | .run [] true =>
    (loopCode s st.mounted g c).map fun p => { st with pc := move st.pc g (.run p.1 p.2) }
  | .run (.spawn h :: l) again =>
    if st.pc h = .idle then
      (startCode s h c).map fun p =>
        { st with pc := move (move st.pc g (.run l again)) h (.run p.1 p.2), trace := st.trace ++ [⟨g, .spawn h⟩] }
    else none
  | .run (.talk h :: l) again =>
    if st.pc h = .run [] true then
      (reactCode s h c).map fun p =>
        { st with pc := move (move st.pc g (.run l again)) h (.run p.1 p.2), trace := st.trace ++ [⟨g, .talk h⟩] }
    else none
  | .run (.mount :: l) again =>
    some { pc := move st.pc g (.run l again), mounted := g :: st.mounted, trace := st.trace ++ [⟨g, .mount⟩] }
  | .run (a :: l) again =>
    some { st with pc := move st.pc g (.run l again), trace := st.trace ++ [⟨g, a⟩] }

/-- At the start only `main` runs. -/
def State.init (s : Setup) : State := ⟨fun g => if g = .main then .run (mainCode s) false else .idle, [], []⟩

/-- The steps of a schedule. -/
def run (s : Setup) : List (Gor × Choice) → State → Option State
  | [], st => some st
  | (g, c) :: rest, st => (step s st g c).bind (run s rest)

/-! ## Specification: the Go memory model -/

/-- The goroutines a step belongs to: its own and, of a `go` statement or a communication on an unbuffered channel, the
other one. -/
def Event.parties (e : Event) : List Gor := e.who :: match e.act with
  | .spawn g | .talk g => [g]
  | _ => []

/-- A step with the lock of the `ServeMux` held. -/
def Event.locks (e : Event) : Prop := e.act = .mount ∨ e.act = .lookup

/-- Two steps, the first earlier, that the Go memory model orders directly: of one goroutine; through a `go` statement
or an unbuffered channel; under a lock, unless both hold it for reading. -/
def Linked (e e' : Event) : Prop :=
  (∃ g, g ∈ e.parties ∧ g ∈ e'.parties) ∨ (e.locks ∧ e'.locks ∧ (e.act = .mount ∨ e'.act = .mount))

/-- The happens-before relation on the positions of an execution. -/
inductive HB (tr : List Event) : Nat → Nat → Prop
  | link {i j : Nat} {e e' : Event} (hij : i < j) (hi : tr[i]? = some e) (hj : tr[j]? = some e') (h : Linked e e') :
      HB tr i j
  | trans {i j k : Nat} (h : HB tr i j) (h' : HB tr j k) : HB tr i k

/-- Touches a variable. -/
def Event.touches (e : Event) (v : Var) : Prop := e.act = .rd v ∨ e.act = .wr v

/-- A data race on a variable: two steps of different goroutines touch it, at least one writes, and neither happens
before the other. -/
def Race (tr : List Event) (v : Var) : Prop :=
  ∃ i j e e', i < j ∧ tr[i]? = some e ∧ tr[j]? = some e' ∧ e.who ≠ e'.who ∧ e.touches v ∧ e'.touches v ∧
    (e.act = .wr v ∨ e'.act = .wr v) ∧ ¬ HB tr i j

/-- The executions of the process. -/
def Execution (s : Setup) (tr : List Event) : Prop := ∃ sched st, run s sched (State.init s) = some st ∧ st.trace = tr

/-! ## What an execution is made of -/

/-- What a goroutine ever does. -/
def May (s : Setup) : Gor → Act → Prop
  | .main, a => (∃ x, a = .rd (.setting x)) ∨ (∃ x, a = .wr (.setting x)) ∨ a = .rd .interfaces ∨ a = .wr .interfaces ∨
      a = .wr .counters ∨ a = .wr .mappings ∨ ∃ g, a = .spawn g ∧ g ≠ .main ∧ ∀ n, g ≠ .conn n
  | .hub, a => a = .wr .clients
  | .statHub, a => a = .wr .statClients
  | .server, a => ∃ n, a = .spawn (.conn n)
  | .api, a => a = .wr .apiRouter ∨ a = .mount
  | .ui, a => a = .wr .router ∨ a = .rd .router ∨ a = .mount ∨ a = .rd (.setting .assetPath)
  | .consumer, a => a = .wr .counters ∨ (∃ x, a = .rd (.setting x)) ∨ a = .rd .mappings ∨ a = .talk .statHub ∨ a = .talk .hub
  | .iface k, a => a = .talk .consumer ∨ s.kinds[k]? = some .canusb ∧
      (a = .rd .fastPackets ∨ a = .wr .fastPackets ∨ a = .rd .partials ∨ a = .wr .partials)
  | .conn _, a => a = .lookup ∨ a = .rd .router ∨ a = .wr .router ∨ a = .rd .apiRouter ∨ (∃ x, a = .rd (.setting x)) ∨
      (∃ x, a = .wr (.setting x)) ∨ a = .rd .interfaces ∨ a = .wr .interfaces ∨ a = .talk .hub ∨ a = .talk .statHub

/-- What a goroutine never does in this order. -/
def Bad : Gor → Act → Act → Prop
  | .main, a, b => (∃ h, a = .spawn h) ∧ ∃ v, b = .wr v
  | .api, a, b | .ui, a, b => a = .mount ∧ ∃ v, b = .wr v
  | .conn _, a, _ => ∃ h, a = .talk h
  | .iface _, a, b => (∃ h, a = .talk h) ∧ b = .wr .fastPackets
  | _, _, _ => False

/-- What a goroutine still has to do. -/
def todo (st : State) (g : Gor) : List Act := match st.pc g with
  | .idle => []
  | .run l _ => l

/-- The steps, one constructor per kind. -/
inductive Step (s : Setup) (st : State) (g : Gor) : State → Prop
  | choose {code : List Act} {b : Bool} {c : Choice} (hg : st.pc g = .run [] true)
      (hc : loopCode s st.mounted g c = some (code, b)) : Step s st g { st with pc := move st.pc g (.run code b) }
  | act {a : Act} {l : List Act} {b : Bool} (hg : st.pc g = .run (a :: l) b) (ha : ∀ h, a ≠ .spawn h ∧ a ≠ .talk h)
      {m : List Gor} (hm : ∀ x, x ∈ m → x ∈ st.mounted ∨ x = g ∧ a = .mount) (hm' : ∀ x ∈ st.mounted, x ∈ m) :
      Step s st g ⟨move st.pc g (.run l b), m, st.trace ++ [⟨g, a⟩]⟩
  | spawn {h : Gor} {l code : List Act} {b b' : Bool} {c : Choice} (hg : st.pc g = .run (.spawn h :: l) b) (hh : st.pc h = .idle)
      (hc : startCode s h c = some (code, b')) :
      Step s st g { st with pc := move (move st.pc g (.run l b)) h (.run code b'), trace := st.trace ++ [⟨g, .spawn h⟩] }
  | talk {h : Gor} {l code : List Act} {b b' : Bool} {c : Choice} (hg : st.pc g = .run (.talk h :: l) b)
      (hh : st.pc h = .run [] true) (hc : reactCode s h c = some (code, b')) :
      Step s st g { st with pc := move (move st.pc g (.run l b)) h (.run code b'), trace := st.trace ++ [⟨g, .talk h⟩] }

theorem step_kind {s : Setup} {st st' : State} {g : Gor} {c : Choice} (h : step s st g c = some st') : Step s st g st' := by
  unfold step at h
  split at h
  · cases h
  · cases h
  · rename_i hg
    cases hc : loopCode s st.mounted g c with
    | none => simp [hc] at h
    | some p =>
      simp only [hc, Option.map_some, Option.some.injEq] at h
      subst h
      exact .choose hg hc
  · rename_i hg
    split at h
    · rename_i hh
      revert h
      cases hc : startCode s _ c with
      | none => simp
      | some p =>
        intro h
        simp only [Option.map_some, Option.some.injEq] at h
        subst h
        exact .spawn hg hh hc
    · cases h
  · rename_i hg
    split at h
    · rename_i hh
      revert h
      cases hc : reactCode s _ c with
      | none => simp
      | some p =>
        intro h
        simp only [Option.map_some, Option.some.injEq] at h
        subst h
        exact .talk hg hh hc
    · cases h
  · rename_i hg
    simp only [Option.some.injEq] at h
    subst h
    exact .act (m := g :: st.mounted) hg (by simp) (fun x hx => by
      rcases List.mem_cons.1 hx with rfl | hx
      · exact .inr ⟨rfl, rfl⟩
      · exact .inl hx) (fun x hx => by simp [hx])
  · rename_i hg
    simp only [Option.some.injEq] at h
    subst h
    refine .act hg (fun h => ⟨?_, ?_⟩) (fun x hx => .inl hx) (fun x hx => hx) <;> rintro rfl <;> simp_all

/-- A property of the state that every step keeps holds in every execution. -/
theorem reach {s : Setup} {P : State → Prop} (h0 : P (State.init s)) (hs : ∀ st g st', P st → Step s st g st' → P st')
    {sched : List (Gor × Choice)} {st : State} (h : run s sched (State.init s) = some st) : P st := by
  suffices ∀ st0, P st0 → run s sched st0 = some st → P st from this _ h0 h
  clear h
  induction sched with
  | nil => intro st0 hp h; simp only [run, Option.some.injEq] at h; exact h ▸ hp
  | cons x rest ih =>
    intro st0 hp h
    obtain ⟨g, c⟩ := x
    simp only [run] at h
    cases hc : step s st0 g c with
    | none => simp [hc] at h
    | some st1 =>
      rw [hc] at h
      exact ih st1 (hs _ _ _ hp (step_kind hc)) h

theorem may_readAll {a : Act} (h : a ∈ readAll) : (∃ x, a = .rd (.setting x)) ∨ a = .rd .interfaces := by
  simp only [readAll, List.mem_append, List.mem_map, List.mem_singleton] at h
  rcases h with ⟨x, _, rfl⟩ | rfl
  · exact .inl ⟨x, rfl⟩
  · exact .inr rfl

theorem may_main {s : Setup} {a : Act} (h : a ∈ mainCode s) : May s .main a := by
  simp only [mainCode, List.mem_append, List.mem_map, List.mem_flatMap] at h
  rcases h with (⟨x, _, rfl⟩ | h) | ((h | h) | ⟨k, _, h⟩) | h
  · simp [May]
  · simp only [List.mem_cons, List.not_mem_nil, or_false] at h
    rcases h with rfl | rfl | rfl | rfl | rfl | rfl | rfl | rfl | rfl | rfl | rfl | rfl | rfl | rfl | rfl <;> simp [May]
  · split at h
    · simp only [List.mem_cons, List.not_mem_nil, or_false] at h
      rcases h with rfl | rfl | rfl <;> simp [May]
    · cases h
  · simp only [List.mem_cons, List.not_mem_nil, or_false] at h
    rcases h with rfl | rfl | rfl <;> simp [May]
  · simp only [List.mem_cons, List.not_mem_nil, or_false] at h
    rcases h with rfl | rfl <;> simp [May]
  · simp only [List.mem_cons, List.not_mem_nil, or_false] at h
    subst h; simp [May]

theorem may_request (s : Setup) (n : Nat) (r : Request) {a : Act} (h : a ∈ r.code.1) : May s (.conn n) a := by
  have hra : ∀ {a : Act}, a ∈ readAll → May s (.conn n) a := fun h => by
    rcases may_readAll h with ⟨x, rfl⟩ | rfl <;> simp [May]
  cases r with
  | page =>
    simp only [Request.code, List.mem_cons] at h
    rcases h with rfl | rfl | h
    · simp [May]
    · simp [May]
    · exact hra h
  | post fills i =>
    simp only [Request.code, List.mem_cons, List.mem_append, List.mem_map] at h
    rcases h with rfl | rfl | ((h | ⟨x, _, rfl⟩) | h) | h
    · simp [May]
    · simp [May]
    · exact hra h
    · simp [May]
    · split at h
      · simp only [List.mem_singleton] at h; subst h; simp [May]
      · cases h
    · exact hra h
  | _ =>
    simp only [Request.code, List.mem_cons, List.not_mem_nil, or_false] at h
    grind [May]

theorem may_line {s : Setup} {k : Nat} (hk : s.kinds[k]? = some .canusb) (l : Line) {a : Act} (h : a ∈ l.code) :
    May s (.iface k) a := by
  simp only [Line.code, List.mem_cons, List.mem_append] at h
  rcases h with rfl | (h | h) | h
  · simp [May, hk]
  all_goals
    split at h
    · simp only [List.mem_singleton] at h; subst h; simp [May, hk]
    · cases h

theorem mem_registration {l : List Bool} {a : Act} (h : a ∈ registration l) : a = .rd .fastPackets ∨ a = .wr .fastPackets := by
  simp only [registration, List.mem_flatMap] at h
  obtain ⟨x, _, h⟩ := h
  cases x <;> simp at h
  · exact .inl h
  · exact h

theorem may_start {s : Setup} {g : Gor} {c : Choice} {code : List Act} {b : Bool} (h : startCode s g c = some (code, b))
    {a : Act} (ha : a ∈ code) : May s g a := by
  cases g with
  | api => simp only [startCode, Option.some.injEq, Prod.mk.injEq] at h; obtain ⟨rfl, _⟩ := h; simp at ha; simp [May]; exact ha
  | ui =>
    simp only [startCode, Option.some.injEq, Prod.mk.injEq] at h; obtain ⟨rfl, _⟩ := h
    simp only [List.mem_cons, List.not_mem_nil, or_false] at ha
    rcases ha with rfl | rfl | rfl | rfl | rfl <;> simp [May]
  | main => cases h
  | iface k =>
    simp only [startCode] at h
    split at h
    · rename_i hk
      split at h
      · simp only [Option.some.injEq, Prod.mk.injEq] at h
        obtain ⟨rfl, _⟩ := h
        rcases mem_registration ha with rfl | rfl <;> simp [May, hk]
      · cases h
    all_goals simp_all
  | _ => simp only [startCode, Option.some.injEq, Prod.mk.injEq] at h; obtain ⟨rfl, _⟩ := h; cases ha

theorem may_loop {s : Setup} {m : List Gor} {g : Gor} {c : Choice} {code : List Act} {b : Bool}
    (h : loopCode s m g c = some (code, b)) {a : Act} (ha : a ∈ code) : May s g a := by
  cases g with
  | server =>
    cases c with
    | accept n =>
      simp only [loopCode, Option.some.injEq, Prod.mk.injEq] at h; obtain ⟨rfl, _⟩ := h
      simp only [List.mem_singleton] at ha; exact ⟨n, ha⟩
    | _ => cases h
  | conn n =>
    cases c with
    | request r =>
      simp only [loopCode] at h
      have : r.code = (code, b) := by
        split at h
        · exact Option.some.inj h
        · split at h
          · exact Option.some.inj h
          · cases h
      exact may_request s n r (by rw [this]; exact ha)
    | _ => cases h
  | iface k =>
    simp only [loopCode] at h
    split at h
    · rename_i hk
      simp only [Option.some.injEq, Prod.mk.injEq] at h
      obtain ⟨rfl, _⟩ := h
      exact may_line hk _ ha
    all_goals simp_all
    all_goals (obtain ⟨rfl, _⟩ := h; simp at ha; subst ha; simp [May])
  | _ => simp [loopCode] at h

theorem may_react {s : Setup} {g : Gor} {c : Choice} {code : List Act} {b : Bool} (h : reactCode s g c = some (code, b))
    {a : Act} (ha : a ∈ code) : May s g a := by
  cases g with
  | hub => simp only [reactCode, Option.some.injEq, Prod.mk.injEq] at h; obtain ⟨rfl, _⟩ := h; simpa [May] using ha
  | statHub => simp only [reactCode, Option.some.injEq, Prod.mk.injEq] at h; obtain ⟨rfl, _⟩ := h; simpa [May] using ha
  | consumer =>
    cases c with
    | message mp =>
      simp only [reactCode, Option.some.injEq, Prod.mk.injEq] at h; obtain ⟨rfl, _⟩ := h
      cases mp <;> cases hw : s.websockets <;> simp [hw] at ha <;> grind [May]
    | _ => simp [reactCode] at h
  | _ => simp [reactCode] at h

/-- New code a goroutine gets. -/
inductive Given (s : Setup) (st : State) (x : Gor) (code : List Act) (b : Bool) : Prop
  | start {c : Choice} (h : st.pc x = .idle) (hc : startCode s x c = some (code, b))
  | loop {c : Choice} (h : st.pc x = .run [] true) (hc : loopCode s st.mounted x c = some (code, b))
  | react {c : Choice} (h : st.pc x = .run [] true) (hc : reactCode s x c = some (code, b))

/-- What a step of `g` means for the goroutine `x`. -/
inductive View (s : Setup) (st : State) (g : Gor) (st' : State) (x : Gor) : Prop
  | same (hx : x ≠ g) (h : st'.pc x = st.pc x)
  | next {a : Act} {l : List Act} {b : Bool} (hx : x = g) (h : st.pc x = .run (a :: l) b) (h' : st'.pc x = .run l b)
      (ht : st'.trace = st.trace ++ [⟨x, a⟩])
  | given {code : List Act} {b : Bool} (h : Given s st x code b) (h' : st'.pc x = .run code b)
      (ht : ∀ e ∈ st'.trace, e ∈ st.trace ∨ e.who ≠ x) (hs : st.pc x = .idle → ⟨g, .spawn x⟩ ∈ st'.trace)

theorem Step.view {s : Setup} {st st' : State} {g : Gor} (h : Step s st g st') (x : Gor) : View s st g st' x := by
  cases h with
  | @choose code b c hg hc =>
    by_cases hx : x = g
    · subst hx
      exact .given (.loop hg hc) (by simp [move]) (fun e he => .inl he) (by simp [hg])
    · exact .same hx (by simp [move, hx])
  | act hg ha hm =>
    by_cases hx : x = g
    · subst hx
      exact .next rfl hg (by simp [move]) rfl
    · exact .same hx (by simp [move, hx])
  | @spawn h l code b b' c hg hh hc =>
    have hgh : g ≠ h := fun e => by rw [e, hh] at hg; cases hg
    by_cases hx : x = h
    · subst hx
      refine .given (.start hh hc) (by simp [move]) (fun e he => ?_) (by simp)
      rcases List.mem_append.1 he with he | he
      · exact .inl he
      · simp only [List.mem_singleton] at he; subst he; exact .inr hgh
    · by_cases hx' : x = g
      · subst hx'
        exact .next rfl hg (by simp [move, hx]) rfl
      · exact .same hx' (by simp [move, hx, hx'])
  | @talk h l code b b' c hg hh hc =>
    have hgh : g ≠ h := fun e => by rw [e, hh] at hg; cases hg
    by_cases hx : x = h
    · subst hx
      refine .given (.react hh hc) (by simp [move]) (fun e he => ?_) (by simp [hh])
      rcases List.mem_append.1 he with he | he
      · exact .inl he
      · simp only [List.mem_singleton] at he; subst he; exact .inr hgh
    · by_cases hx' : x = g
      · subst hx'
        exact .next rfl hg (by simp [move, hx]) rfl
      · exact .same hx' (by simp [move, hx, hx'])

/-- What a step adds to what happened. -/
theorem Step.events {s : Setup} {st st' : State} {g : Gor} (h : Step s st g st') :
    st'.trace = st.trace ∨ ∃ a l b, st.pc g = .run (a :: l) b ∧ st'.trace = st.trace ++ [⟨g, a⟩] ∧
      (∀ x, a = .spawn x → st.pc x = .idle ∧ st'.pc x ≠ .idle) ∧ (∀ x, a = .talk x → st.pc x = .run [] true) := by
  cases h with
  | choose hg hc => exact .inl rfl
  | @act a l b hg ha m hm hm' =>
    exact .inr ⟨a, l, b, hg, rfl, fun x hx => absurd hx (ha x).1, fun x hx => absurd hx (ha x).2⟩
  | @spawn h l code b b' c hg hh hc =>
    refine .inr ⟨_, l, b, hg, rfl, fun x hx => ?_, fun x hx => by cases hx⟩
    cases hx
    exact ⟨hh, by simp [move]⟩
  | @talk h l code b b' c hg hh hc =>
    refine .inr ⟨_, l, b, hg, rfl, fun x hx => (by cases hx), fun x hx => ?_⟩
    cases hx
    exact hh

theorem Step.mounts {s : Setup} {st st' : State} {g : Gor} (h : Step s st g st') {x : Gor} (hx : x ∈ st'.mounted) :
    x ∈ st.mounted ∨ ⟨x, .mount⟩ ∈ st'.trace := by
  cases h with
  | act hg ha hm =>
    rcases hm x hx with h | ⟨rfl, rfl⟩
    · exact .inl h
    · exact .inr (by simp)
  | _ => exact .inl hx

theorem Given.may {s : Setup} {st : State} {x : Gor} {code : List Act} {b : Bool} (h : Given s st x code b) {a : Act}
    (ha : a ∈ code) : May s x a := by
  cases h with
  | start _ hc => exact may_start hc ha
  | loop _ hc => exact may_loop hc ha
  | react _ hc => exact may_react hc ha

theorem bad_registration (k : Nat) (l : List Bool) : (registration l).Pairwise (fun a b => ¬ Bad (.iface k) a b) := by
  refine List.pairwise_iff_forall_sublist.2 fun {a b} hs => ?_
  have : a ∈ registration l := hs.subset (by simp)
  rcases mem_registration this with rfl | rfl <;> simp [Bad]

/-- Code after the start of an interface registers nothing. -/
theorem loop_iface {s : Setup} {m : List Gor} {k : Nat} {c : Choice} {code : List Act} {b : Bool}
    (h : loopCode s m (.iface k) c = some (code, b)) : .wr .fastPackets ∉ code := by
  simp only [loopCode] at h
  split at h
  · simp only [Option.some.injEq, Prod.mk.injEq] at h
    obtain ⟨rfl, _⟩ := h
    simp [Line.code]
  all_goals simp_all
  all_goals (obtain ⟨rfl, _⟩ := h; simp)

theorem talk_readAll {h : Gor} : .talk h ∉ readAll := fun hm => by
  rcases may_readAll hm with ⟨x, hx⟩ | hx <;> cases hx

/-- A request hands the connection over at its end or not at all. -/
theorem request_talk (r : Request) : (r.code.2 = true → ∀ h, .talk h ∉ r.code.1) ∧
    r.code.1.Pairwise (fun a _ => ∀ h, a ≠ .talk h) := by
  have hno : (∀ h, .talk h ∉ r.code.1) → r.code.1.Pairwise (fun a _ => ∀ h, a ≠ .talk h) := fun hn => by
    refine List.pairwise_iff_forall_sublist.2 fun {a b} hs h e => hn h ?_
    exact e ▸ hs.subset (by simp)
  cases r with
  | page =>
    have : ∀ h, .talk h ∉ (Request.code .page).1 := fun h => by simp [Request.code, talk_readAll]
    exact ⟨fun _ => this, hno this⟩
  | post fills i =>
    have : ∀ h, .talk h ∉ (Request.code (.post fills i)).1 := fun h => by
      simp [Request.code, talk_readAll]
    exact ⟨fun _ => this, hno this⟩
  | _ => simp [Request.code]

theorem loop_conn {s : Setup} {m : List Gor} {n : Nat} {c : Choice} {code : List Act} {b : Bool}
    (h : loopCode s m (.conn n) c = some (code, b)) : ∃ r : Request, r.code = (code, b) ∧ ∀ g, r.needs = some g → g ∈ m := by
  cases c with
  | request r =>
    simp only [loopCode] at h
    split at h
    · rename_i hn
      exact ⟨r, Option.some.inj h, by simp [hn]⟩
    · rename_i g hn
      split at h
      · rename_i hm
        exact ⟨r, Option.some.inj h, fun g' hg' => by rw [hn] at hg'; cases hg'; exact hm⟩
      · cases h
  | _ => cases h

/-- New code is in order. -/
theorem Given.order {s : Setup} {st : State} {x : Gor} {code : List Act} {b : Bool} (h : Given s st x code b) :
    code.Pairwise (fun a b => ¬ Bad x a b) := by
  cases x with
  | main =>
    cases h with
    | start _ hc => cases hc
    | loop _ hc => cases hc
    | react _ hc => cases hc
  | api =>
    cases h with
    | start _ hc => simp only [startCode, Option.some.injEq, Prod.mk.injEq] at hc; obtain ⟨rfl, _⟩ := hc; simp [Bad]
    | loop _ hc => cases hc
    | react _ hc => cases hc
  | ui =>
    cases h with
    | start _ hc => simp only [startCode, Option.some.injEq, Prod.mk.injEq] at hc; obtain ⟨rfl, _⟩ := hc; simp [Bad]
    | loop _ hc => cases hc
    | react _ hc => cases hc
  | iface k =>
    cases h with
    | start _ hc =>
      simp only [startCode] at hc
      split at hc
      · split at hc
        · simp only [Option.some.injEq, Prod.mk.injEq] at hc
          obtain ⟨rfl, _⟩ := hc
          exact bad_registration k _
        · cases hc
      all_goals simp_all
    | loop _ hc =>
      have hn := loop_iface hc
      refine List.pairwise_iff_forall_sublist.2 fun {a b} hs hb => hn ?_
      exact hb.2 ▸ hs.subset (by simp)
    | react _ hc => cases hc
  | conn n =>
    cases h with
    | start _ hc => simp only [startCode, Option.some.injEq, Prod.mk.injEq] at hc; obtain ⟨rfl, _⟩ := hc; simp
    | loop _ hc =>
      obtain ⟨r, hr, _⟩ := loop_conn hc
      have := (request_talk r).2
      rw [hr] at this
      exact this.imp fun h hb => by obtain ⟨g, hg⟩ := hb; exact h g hg
    | react _ hc => cases hc
  | _ =>
    refine List.pairwise_iff_forall_sublist.2 fun {a b} hs hb => ?_
    exact hb

/-- `main` writes first and starts goroutines afterwards. -/
theorem main_order (s : Setup) : (mainCode s).Pairwise (fun a b => ¬ Bad .main a b) := by
  unfold mainCode
  refine List.pairwise_append.2 ⟨?_, ?_, ?_⟩
  · refine List.pairwise_iff_forall_sublist.2 fun {a b} hs hb => ?_
    have ha := hs.subset (a := a) (by simp)
    obtain ⟨h, rfl⟩ := hb.1
    simp at ha
  · refine List.pairwise_iff_forall_sublist.2 fun {a b} hs hb => ?_
    have ha := hs.subset (a := b) (by simp)
    obtain ⟨h, rfl⟩ := hb.2
    simp only [List.mem_append, List.mem_flatMap] at ha
    rcases ha with ((ha | ha) | ⟨k, _, ha⟩) | ha
    · split at ha <;> simp at ha
    all_goals simp at ha
  · intro a ha b hb hbad
    obtain ⟨h, rfl⟩ := hbad.1
    simp at ha

/-- The owner of a router. -/
def owner : Var → Option Gor
  | .router => some .ui
  | .apiRouter => some .api
  | _ => none

/-- A lookup of a connection after a router was mounted. -/
def Synced (tr : List Event) (o : Gor) (n : Nat) (j : Nat) : Prop :=
  ∃ p q, p < q ∧ q < j ∧ tr[p]? = some ⟨o, .mount⟩ ∧ tr[q]? = some ⟨.conn n, .lookup⟩

/-- A CANUSB interface has begun to register, before anything else it did. -/
def Began (tr : List Event) (k : Nat) : Prop :=
  ∃ j : Nat, tr[j]? = some ⟨.iface k, .rd .fastPackets⟩ ∧ ∀ i < j, ∀ e, tr[i]? = some e → e.who ≠ .iface k

/-- What holds at every moment. -/
structure Inv (s : Setup) (st : State) : Prop where
  may : ∀ e ∈ st.trace, May s e.who e.act
  mayTodo : ∀ g l b, st.pc g = .run l b → ∀ a ∈ l, May s g a
  main : st.pc .main ≠ .idle
  fresh : ∀ g, st.pc g = .idle → ∀ e ∈ st.trace, g ∉ e.parties
  spawned : ∀ g, g ≠ .main → st.pc g ≠ .idle → ∃ par, ⟨par, .spawn g⟩ ∈ st.trace
  before : ∀ (j : Nat) (e : Event) (g : Gor), st.trace[j]? = some e → g ∈ e.parties → g ≠ .main →
    e.act = .spawn g ∨ ∃ p < j, ∃ par, st.trace[p]? = some ⟨par, .spawn g⟩
  first : st.trace.Pairwise (fun e e' => ∀ g, e'.act = .spawn g → g ∉ e.parties)
  order : st.trace.Pairwise (fun e e' => e.who = e'.who → ¬ Bad e.who e.act e'.act)
  orderTodo : ∀ g l b, st.pc g = .run l b → ∀ e ∈ st.trace, e.who = g → ∀ a ∈ l, ¬ Bad g e.act a
  orderCode : ∀ g l b, st.pc g = .run l b → l.Pairwise (fun a b => ¬ Bad g a b)
  again : ∀ g l, st.pc g = .run l true → g ≠ .main ∧ g ≠ .api ∧ g ≠ .ui ∧
    ∀ n, g = .conn n → (∀ h, .talk h ∉ l) ∧ ∀ e ∈ st.trace, e.who = g → ∀ h, e.act ≠ .talk h
  mounted : ∀ g ∈ st.mounted, ⟨g, .mount⟩ ∈ st.trace
  reg : ∀ k l b, s.kinds[k]? = some .canusb → 0 < s.fast → st.pc (.iface k) = .run l b →
    Began st.trace k ∨ l.head? = some (.rd .fastPackets) ∧ ∀ e ∈ st.trace, e.who ≠ .iface k
  serving : ∀ n l b v o, st.pc (.conn n) = .run l b → owner v = some o → (.rd v ∈ l ∨ .wr v ∈ l) →
    l.head? = some .lookup ∧ ⟨o, .mount⟩ ∈ st.trace ∨ Synced st.trace o n st.trace.length
  served : ∀ (j : Nat) n v o a, owner v = some o → a = .rd v ∨ a = .wr v → st.trace[j]? = some ⟨.conn n, a⟩ → Synced st.trace o n j

theorem Inv.init (s : Setup) : Inv s (State.init s) where
  may := by simp [State.init]
  mayTodo g l b h a ha := by
    by_cases hg : g = .main
    · subst hg
      simp only [State.init, if_true, Pc.run.injEq] at h
      exact may_main (h.1 ▸ ha)
    · simp [State.init, hg] at h
  main := by simp [State.init]
  fresh := by simp [State.init]
  spawned g hg h := by simp [State.init, hg] at h
  before := by simp [State.init]
  first := by simp [State.init]
  order := by simp [State.init]
  orderTodo := by simp [State.init]
  orderCode g l b h := by
    by_cases hg : g = .main
    · subst hg
      simp only [State.init, if_true, Pc.run.injEq] at h
      exact h.1 ▸ main_order s
    · simp [State.init, hg] at h
  again g l h := by
    by_cases hg : g = .main
    · subst hg; simp [State.init] at h
    · simp [State.init, hg] at h
  mounted := by simp [State.init]
  reg k l b _ _ h := by simp [State.init] at h
  serving n l b v o h := by simp [State.init] at h
  served := by simp [State.init]

theorem Began.append {tr : List Event} {k : Nat} (h : Began tr k) (l : List Event) : Began (tr ++ l) k := by
  obtain ⟨j, hj, hi⟩ := h
  have hlt := (List.getElem?_eq_some_iff.1 hj).1
  refine ⟨j, by rw [List.getElem?_append_left hlt]; exact hj, fun i hij e he => hi i hij e ?_⟩
  rwa [List.getElem?_append_left (by omega)] at he

theorem Synced.append {tr : List Event} {o : Gor} {n j : Nat} (h : Synced tr o n j) (l : List Event) : Synced (tr ++ l) o n j := by
  obtain ⟨p, q, hpq, hqj, hp, hq⟩ := h
  have h1 := (List.getElem?_eq_some_iff.1 hp).1
  have h2 := (List.getElem?_eq_some_iff.1 hq).1
  exact ⟨p, q, hpq, hqj, by rw [List.getElem?_append_left h1]; exact hp, by rw [List.getElem?_append_left h2]; exact hq⟩

theorem Synced.mono {tr : List Event} {o : Gor} {n j j' : Nat} (h : Synced tr o n j) (hj : j ≤ j') : Synced tr o n j' := by
  obtain ⟨p, q, hpq, hqj, hp, hq⟩ := h
  exact ⟨p, q, hpq, by omega, hp, hq⟩

theorem getElem?_snoc {tr : List Event} {x e : Event} {j : Nat} (h : (tr ++ [x])[j]? = some e) :
    tr[j]? = some e ∧ j < tr.length ∨ j = tr.length ∧ e = x := by
  by_cases hj : j < tr.length
  · rw [List.getElem?_append_left hj] at h
    exact .inl ⟨h, hj⟩
  · have := (List.getElem?_eq_some_iff.1 h).1
    simp only [List.length_append, List.length_cons, List.length_nil] at this
    have hj' : j = tr.length := by omega
    subst hj'
    simp at h
    exact .inr ⟨rfl, h.symm⟩

/-- The first code of a CANUSB interface. -/
theorem start_head {s : Setup} {k : Nat} {c : Choice} {code : List Act} {b : Bool} (hk : s.kinds[k]? = some .canusb)
    (hf : 0 < s.fast) (h : startCode s (.iface k) c = some (code, b)) : code.head? = some (.rd .fastPackets) := by
  simp only [startCode, hk] at h
  cases c with
  | registered l =>
    simp only at h
    split at h
    · rename_i hl
      simp only [Option.some.injEq, Prod.mk.injEq] at h
      obtain ⟨rfl, _⟩ := h
      cases l with
      | nil => simp at hl; omega
      | cons x l => cases x <;> simp [registration]
    · cases h
  | _ => cases h

/-- Requests that use a router begin with the lookup that found it. -/
theorem request_router (r : Request) {v : Var} {o : Gor} (ho : owner v = some o) (h : .rd v ∈ r.code.1 ∨ .wr v ∈ r.code.1) :
    r.code.1.head? = some .lookup ∧ r.needs = some o := by
  have hra : ∀ a, (a = .rd v ∨ a = .wr v) → a ∉ readAll := fun a ha hm => by
    rcases may_readAll hm with ⟨x, rfl⟩ | rfl
    all_goals
      rcases ha with ha | ha <;> simp at ha
      subst ha; simp [owner] at ho
  have hset : ∀ x, v ≠ .setting x := fun x e => by simp [e, owner] at ho
  have hi : v ≠ .interfaces := fun e => by simp [e, owner] at ho
  have hv : v = .router ∧ o = .ui ∨ v = .apiRouter ∧ o = .api := by
    cases v <;> simp [owner] at ho <;> simp [ho]
  cases r with
  | page =>
    simp only [Request.code, List.mem_cons, hra _ (.inl rfl), hra _ (.inr rfl), or_false, reduceCtorEq, false_or] at h
    simp only [Request.code, List.head?_cons, Request.needs, true_and, Option.some.injEq]
    rcases hv with ⟨rfl, rfl⟩ | ⟨rfl, rfl⟩
    · rfl
    · simp at h
  | post fills i =>
    simp only [Request.code, List.head?_cons, Request.needs, true_and, Option.some.injEq]
    rcases hv with ⟨rfl, rfl⟩ | ⟨rfl, rfl⟩
    · rfl
    · simp [Request.code, hra] at h
  | _ =>
    simp only [Request.code, List.head?_cons, Request.needs, true_and, Option.some.injEq]
    rcases hv with ⟨rfl, rfl⟩ | ⟨rfl, rfl⟩ <;> simp [Request.code] at h <;> rfl

theorem Inv.step {s : Setup} {st st' : State} {g : Gor} (hi : Inv s st) (h : Step s st g st') : Inv s st' := by
  have hsub : ∀ e ∈ st.trace, e ∈ st'.trace := by
    rcases h.events with ht | ⟨a, l, b, _, ht, _⟩ <;> rw [ht] <;> simp +contextual
  -- new code is for a goroutine that has no unfinished code
  refine ⟨?may, ?mayTodo, ?main, ?fresh, ?spawned, ?before, ?first, ?order, ?orderTodo, ?orderCode, ?again, ?mounted, ?reg,
    ?serving, ?served⟩
  case may =>
    rcases h.events with ht | ⟨a, l, b, hg, ht, _⟩ <;> rw [ht]
    · exact hi.may
    · intro e he
      rcases List.mem_append.1 he with he | he
      · exact hi.may e he
      · simp only [List.mem_singleton] at he
        subst he
        exact hi.mayTodo _ _ _ hg a (by simp)
  case mayTodo =>
    intro x l b hx a ha
    cases h.view x with
    | same hxg hp => exact hi.mayTodo x l b (hp ▸ hx) a ha
    | next hxg hp hp' ht =>
      rw [hp'] at hx
      obtain ⟨rfl, rfl⟩ := Pc.run.inj hx
      exact hi.mayTodo _ _ _ hp a (by simp [ha])
    | given hc hp' ht hs =>
      rw [hp'] at hx
      obtain ⟨rfl, rfl⟩ := Pc.run.inj hx
      exact hc.may ha
  case main =>
    cases h.view .main with
    | same hxg hp => rw [hp]; exact hi.main
    | next hxg hp hp' ht => rw [hp']; simp
    | given hc hp' ht hs => rw [hp']; simp
  case fresh =>
    intro x hx e he
    cases h.view x with
    | same hxg hp =>
      have hx0 := hp ▸ hx
      rcases h.events with ht | ⟨a, l, b, hg, ht, hsp, htk⟩
      · exact hi.fresh x hx0 e (ht ▸ he)
      · rw [ht] at he
        rcases List.mem_append.1 he with he | he
        · exact hi.fresh x hx0 e he
        · simp only [List.mem_singleton] at he
          subst he
          simp only [Event.parties, List.mem_cons, not_or]
          refine ⟨hxg, ?_⟩
          cases a with
          | spawn y =>
            simp only [List.mem_singleton]
            rintro rfl
            exact (hsp x rfl).2 hx
          | talk y =>
            simp only [List.mem_singleton]
            rintro rfl
            have := htk x rfl
            rw [hx0] at this; cases this
          | _ => simp
    | next hxg hp hp' ht => rw [hp'] at hx; cases hx
    | given hc hp' ht hs => rw [hp'] at hx; cases hx
  case spawned =>
    intro x hxm hx
    cases h.view x with
    | same hxg hp =>
      obtain ⟨par, hpar⟩ := hi.spawned x hxm (hp ▸ hx)
      exact ⟨par, hsub _ hpar⟩
    | next hxg hp hp' ht =>
      obtain ⟨par, hpar⟩ := hi.spawned x hxm (by rw [hp]; simp)
      exact ⟨par, hsub _ hpar⟩
    | given hc hp' ht hs =>
      by_cases hid : st.pc x = .idle
      · exact ⟨g, hs hid⟩
      · obtain ⟨par, hpar⟩ := hi.spawned x hxm hid
        exact ⟨par, hsub _ hpar⟩
  case before =>
    rcases h.events with ht | ⟨a, l, b, hg, ht, hsp, htk⟩ <;> rw [ht]
    · exact hi.before
    · intro j e x hj hx hxm
      rcases getElem?_snoc hj with ⟨hj, hlt⟩ | ⟨rfl, rfl⟩
      · rcases hi.before j e x hj hx hxm with h | ⟨p, hp, par, hpar⟩
        · exact .inl h
        · exact .inr ⟨p, hp, par, by rw [List.getElem?_append_left (by omega)]; exact hpar⟩
      · have hrun : st.pc x ≠ .idle → ∃ p < st.trace.length, ∃ par, (st.trace ++ [⟨g, a⟩])[p]? = some ⟨par, .spawn x⟩ := fun hr => by
          obtain ⟨par, hpar⟩ := hi.spawned x hxm hr
          obtain ⟨p, hp, hp'⟩ := List.mem_iff_getElem.1 hpar
          exact ⟨p, hp, par, by rw [List.getElem?_append_left hp, List.getElem?_eq_getElem hp, hp']⟩
        simp only [Event.parties, List.mem_cons] at hx
        rcases hx with rfl | hx
        · exact .inr (hrun (by rw [hg]; simp))
        · cases a with
          | spawn y => simp only [List.mem_singleton] at hx; subst hx; exact .inl rfl
          | talk y =>
            simp only [List.mem_singleton] at hx; subst hx
            exact .inr (hrun (by rw [htk x rfl]; simp))
          | _ => simp at hx
  case first =>
    rcases h.events with ht | ⟨a, l, b, hg, ht, hsp, htk⟩ <;> rw [ht]
    · exact hi.first
    · refine List.pairwise_append.2 ⟨hi.first, by simp, fun e he e' he' x hx => ?_⟩
      simp only [List.mem_singleton] at he'
      subst he'
      exact hi.fresh x (hsp x hx).1 e he
  case order =>
    rcases h.events with ht | ⟨a, l, b, hg, ht, hsp, htk⟩ <;> rw [ht]
    · exact hi.order
    · refine List.pairwise_append.2 ⟨hi.order, by simp, fun e he e' he' hw => ?_⟩
      simp only [List.mem_singleton] at he'
      subst he'
      simp only at hw
      rw [hw]
      exact hi.orderTodo g _ _ hg e he hw a (by simp)
  case orderTodo =>
    intro x l b hx e he hw a ha
    cases h.view x with
    | same hxg hp =>
      rcases h.events with ht | ⟨a', l', b', hg, ht, hsp, htk⟩
      · exact hi.orderTodo x l b (hp ▸ hx) e (ht ▸ he) hw a ha
      · rw [ht] at he
        rcases List.mem_append.1 he with he | he
        · exact hi.orderTodo x l b (hp ▸ hx) e he hw a ha
        · simp only [List.mem_singleton] at he
          subst he
          exact absurd hw.symm hxg
    | next hxg hp hp' ht =>
      rw [hp'] at hx
      obtain ⟨rfl, rfl⟩ := Pc.run.inj hx
      rw [ht] at he
      rcases List.mem_append.1 he with he | he
      · exact hi.orderTodo x _ _ hp e he hw a (by simp [ha])
      · simp only [List.mem_singleton] at he
        subst he
        exact (List.pairwise_cons.1 (hi.orderCode x _ _ hp)).1 a ha
    | given hc hp' ht hs =>
      rw [hp'] at hx
      obtain ⟨rfl, rfl⟩ := Pc.run.inj hx
      have he0 : e ∈ st.trace := (ht e he).resolve_right (by simp [hw])
      cases hc with
      | start hid hcode =>
        exact absurd (by simp [Event.parties, hw]) (hi.fresh x hid e he0)
      | loop hid hcode =>
        obtain ⟨h1, h2, h3, h4⟩ := hi.again x _ hid
        cases x with
        | main => exact absurd rfl h1
        | api => exact absurd rfl h2
        | ui => exact absurd rfl h3
        | conn n => rintro ⟨y, hy⟩; exact (h4 n rfl).2 e he0 hw y hy
        | iface k => rintro ⟨_, rfl⟩; exact loop_iface hcode ha
        | _ => exact fun h => h
      | react hid hcode =>
        obtain ⟨h1, h2, h3, h4⟩ := hi.again x _ hid
        cases x with
        | main => exact absurd rfl h1
        | api => exact absurd rfl h2
        | ui => exact absurd rfl h3
        | conn n => cases hcode
        | iface k => cases hcode
        | _ => exact fun h => h
  case orderCode =>
    intro x l b hx
    cases h.view x with
    | same hxg hp => exact hi.orderCode x l b (hp ▸ hx)
    | next hxg hp hp' ht =>
      rw [hp'] at hx
      obtain ⟨rfl, rfl⟩ := Pc.run.inj hx
      exact (List.pairwise_cons.1 (hi.orderCode x _ _ hp)).2
    | given hc hp' ht hs =>
      rw [hp'] at hx
      obtain ⟨rfl, rfl⟩ := Pc.run.inj hx
      exact hc.order
  case again =>
    intro x l hx
    cases h.view x with
    | same hxg hp =>
      obtain ⟨h1, h2, h3, h4⟩ := hi.again x l (hp ▸ hx)
      refine ⟨h1, h2, h3, fun n hn => ⟨(h4 n hn).1, fun e he hw => ?_⟩⟩
      rcases h.events with ht | ⟨a', l', b', hg, ht, hsp, htk⟩
      · exact (h4 n hn).2 e (ht ▸ he) hw
      · rw [ht] at he
        rcases List.mem_append.1 he with he | he
        · exact (h4 n hn).2 e he hw
        · simp only [List.mem_singleton] at he
          subst he
          exact absurd hw.symm hxg
    | next hxg hp hp' ht =>
      rw [hp'] at hx
      obtain ⟨rfl, rfl⟩ := Pc.run.inj hx
      obtain ⟨h1, h2, h3, h4⟩ := hi.again x _ hp
      refine ⟨h1, h2, h3, fun n hn => ⟨fun y hy => (h4 n hn).1 y (by simp [hy]), fun e he hw => ?_⟩⟩
      rw [ht] at he
      rcases List.mem_append.1 he with he | he
      · exact (h4 n hn).2 e he hw
      · simp only [List.mem_singleton] at he
        subst he
        rintro y rfl
        exact (h4 n hn).1 y (by simp)
    | given hc hp' ht hs =>
      rw [hp'] at hx
      obtain ⟨rfl, rfl⟩ := Pc.run.inj hx
      cases hc with
      | start hid hcode =>
        refine ⟨?_, ?_, ?_, fun n hn => ⟨fun y hy => ?_, fun e he hw => ?_⟩⟩
        · rintro rfl; cases hcode
        · rintro rfl; simp [startCode] at hcode
        · rintro rfl; simp [startCode] at hcode
        · subst hn
          simp only [startCode, Option.some.injEq, Prod.mk.injEq] at hcode
          obtain ⟨rfl, _⟩ := hcode
          cases hy
        · exact absurd (by simp [Event.parties, hw]) (hi.fresh x hid e ((ht e he).resolve_right (by simp [hw])))
      | loop hid hcode =>
        obtain ⟨h1, h2, h3, h4⟩ := hi.again x _ hid
        refine ⟨h1, h2, h3, fun n hn => ⟨fun y hy => ?_, fun e he hw => ?_⟩⟩
        · subst hn
          obtain ⟨r, hr, _⟩ := loop_conn hcode
          have := (request_talk r).1
          rw [hr] at this
          exact this rfl y hy
        · exact (h4 n hn).2 e ((ht e he).resolve_right (by simp [hw])) hw
      | react hid hcode =>
        obtain ⟨h1, h2, h3, h4⟩ := hi.again x _ hid
        refine ⟨h1, h2, h3, fun n hn => ?_⟩
        subst hn
        cases hcode
  case mounted =>
    intro x hx
    rcases h.mounts hx with h' | h'
    · exact hsub _ (hi.mounted x h')
    · exact h'
  case reg =>
    intro k l b hk hf hx
    have happ : Began st.trace k → Began st'.trace k := fun hb => by
      rcases h.events with ht | ⟨a, l, b, _, ht, _⟩ <;> rw [ht]
      · exact hb
      · exact hb.append _
    cases h.view (.iface k) with
    | same hxg hp =>
      rcases hi.reg k l b hk hf (hp ▸ hx) with hb | ⟨hh, hn⟩
      · exact .inl (happ hb)
      · refine .inr ⟨hh, fun e he => ?_⟩
        rcases h.events with ht | ⟨a', l', b', hg, ht, hsp, htk⟩
        · exact hn e (ht ▸ he)
        · rw [ht] at he
          rcases List.mem_append.1 he with he | he
          · exact hn e he
          · simp only [List.mem_singleton] at he
            subst he
            exact fun h => hxg h.symm
    | next hxg hp hp' ht =>
      rcases hi.reg k _ _ hk hf hp with hb | ⟨hh, hn⟩
      · exact .inl (happ hb)
      · left
        simp only [List.head?_cons, Option.some.injEq] at hh
        subst hh
        refine ⟨st.trace.length, by rw [ht]; simp, fun i hi' e he => hn e ?_⟩
        rw [ht, List.getElem?_append_left hi'] at he
        exact List.mem_of_getElem? he
    | given hc hp' ht hs =>
      rw [hp'] at hx
      obtain ⟨rfl, rfl⟩ := Pc.run.inj hx
      cases hc with
      | start hid hcode =>
        refine .inr ⟨start_head hk hf hcode, fun e he hw => ?_⟩
        exact hi.fresh _ hid e ((ht e he).resolve_right (by simp [hw])) (by simp [Event.parties, hw])
      | loop hid hcode =>
        rcases hi.reg k _ _ hk hf hid with hb | ⟨hh, hn⟩
        · exact .inl (happ hb)
        · cases hh
      | react hid hcode => cases hcode
  case serving =>
    intro n l b v o hx ho hv
    have happ : Synced st.trace o n st.trace.length → Synced st'.trace o n st'.trace.length := fun hb => by
      rcases h.events with ht | ⟨a, l, b, _, ht, _⟩ <;> rw [ht]
      · exact hb
      · exact (hb.append _).mono (by simp)
    cases h.view (.conn n) with
    | same hxg hp =>
      rcases hi.serving n l b v o (hp ▸ hx) ho hv with ⟨hh, hm⟩ | hs
      · exact .inl ⟨hh, hsub _ hm⟩
      · exact .inr (happ hs)
    | next hxg hp hp' ht =>
      rw [hp'] at hx
      obtain ⟨rfl, rfl⟩ := Pc.run.inj hx
      rcases hi.serving n _ _ v o hp ho (hv.imp (by simp +contextual) (by simp +contextual)) with ⟨hh, hm⟩ | hs
      · right
        simp only [List.head?_cons, Option.some.injEq] at hh
        subst hh
        obtain ⟨p, hp, hp'⟩ := List.mem_iff_getElem.1 hm
        rw [ht]
        exact ⟨p, st.trace.length, hp, by simp, by rw [List.getElem?_append_left hp, List.getElem?_eq_getElem hp, hp'], by simp⟩
      · exact .inr (happ hs)
    | given hc hp' ht hs =>
      rw [hp'] at hx
      obtain ⟨rfl, rfl⟩ := Pc.run.inj hx
      cases hc with
      | start hid hcode =>
        simp only [startCode, Option.some.injEq, Prod.mk.injEq] at hcode
        obtain ⟨rfl, _⟩ := hcode
        simp at hv
      | loop hid hcode =>
        obtain ⟨r, hr, hn⟩ := loop_conn hcode
        obtain ⟨hh, hneed⟩ := request_router r ho (by rw [hr]; exact hv)
        rw [hr] at hh
        exact .inl ⟨hh, hsub _ (hi.mounted o (hn o hneed))⟩
      | react hid hcode => cases hcode
  case served =>
    intro j n v o a ho ha hj
    rcases h.events with ht | ⟨a', l, b, hg, ht, _⟩ <;> rw [ht] at hj ⊢
    · exact hi.served j n v o a ho ha hj
    · rcases getElem?_snoc hj with ⟨hj, _⟩ | ⟨rfl, he⟩
      · exact (hi.served j n v o a ho ha hj).append _
      · cases he
        rcases hi.serving n _ _ v o hg ho (by rcases ha with rfl | rfl <;> simp) with ⟨hh, hm⟩ | hs
        · simp only [List.head?_cons, Option.some.injEq] at hh
          subst hh
          rcases ha with ha | ha <;> cases ha
        · exact hs.append _

theorem Execution.inv {s : Setup} {tr : List Event} (h : Execution s tr) : ∃ st, Inv s st ∧ st.trace = tr := by
  obtain ⟨sched, st, hr, ht⟩ := h
  exact ⟨st, reach (P := Inv s) (Inv.init s) (fun _ _ _ hp hs => hp.step hs) hr, ht⟩

/-! ## Ordered and unordered steps -/

theorem pairwise_at {R : Event → Event → Prop} {tr : List Event} (h : tr.Pairwise R) {i j : Nat} {e e' : Event} (hij : i < j)
    (hi : tr[i]? = some e) (hj : tr[j]? = some e') : R e e' := by
  obtain ⟨h1, rfl⟩ := List.getElem?_eq_some_iff.1 hi
  obtain ⟨h2, rfl⟩ := List.getElem?_eq_some_iff.1 hj
  exact List.pairwise_iff_getElem.1 h i j h1 h2 hij

/-- What is closed under direct predecessors is closed under happens-before. -/
theorem HB.back {tr : List Event} {P : Nat → Prop}
    (hc : ∀ i j e e', i < j → tr[i]? = some e → tr[j]? = some e' → Linked e e' → P j → P i) {i j : Nat} (h : HB tr i j)
    (hj : P j) : P i := by
  induction h with
  | link hij hi hj' hl => exact hc _ _ _ _ hij hi hj' hl hj
  | trans _ _ ih1 ih2 => exact ih1 (ih2 hj)

theorem HB.lt {tr : List Event} {i j : Nat} (h : HB tr i j) : i < j := by
  induction h with
  | link hij => exact hij
  | trans _ _ ih1 ih2 => omega

/-- Who starts goroutines. -/
theorem spawner {s : Setup} {g h : Gor} (hm : May s g (.spawn h)) :
    g = .main ∧ h ≠ .main ∧ (∀ n, h ≠ .conn n) ∨ g = .server ∧ ∃ n, h = .conn n := by
  cases g <;> simp [May] at hm
  · exact .inl ⟨rfl, hm⟩
  · obtain ⟨n, rfl⟩ := hm; exact .inr ⟨rfl, n, rfl⟩

/-- Who receives. -/
theorem receiver {s : Setup} {g h : Gor} (hm : May s g (.talk h)) : h = .hub ∨ h = .statHub ∨ h = .consumer := by
  cases g <;> simp [May] at hm <;> grind

/-- What `main` wrote before it started anything is seen by everybody. -/
theorem main_first {s : Setup} {st : State} (hi : Inv s st) {v : Var} {i j : Nat} {e : Event}
    (hw : st.trace[i]? = some ⟨.main, .wr v⟩) (hj : st.trace[j]? = some e) (he : e.who ≠ .main) : i < j ∧ HB st.trace i j := by
  -- a goroutine `main` started
  have direct : ∀ (j : Nat) (e : Event) (g : Gor), st.trace[j]? = some e → g ∈ e.parties → g ≠ .main → e.act ≠ .spawn g →
      (∀ n, g ≠ .conn n) → i < j ∧ HB st.trace i j := fun j e g hj hg hgm hns hnc => by
    rcases hi.before j e g hj hg hgm with h | ⟨p, hpj, par, hp⟩
    · exact absurd h hns
    · have hpm := hi.may _ (List.mem_of_getElem? hp)
      rcases spawner hpm with ⟨rfl, _⟩ | ⟨_, n, hn⟩
      · have hip : i < p := by
          rcases Nat.lt_trichotomy i p with h | h | h
          · exact h
          · subst h; rw [hw] at hp; cases hp
          · exact absurd ⟨⟨g, rfl⟩, v, rfl⟩ (pairwise_at hi.order h hp hw rfl)
        exact ⟨by omega, .trans (.link hip hw hp (.inl ⟨.main, by simp [Event.parties], by simp [Event.parties]⟩))
          (.link hpj hp hj (.inl ⟨g, by simp [Event.parties], hg⟩))⟩
      · exact absurd hn (hnc n)
  have hns : e.act ≠ .spawn e.who := fun h => by
    have hm := hi.may _ (List.mem_of_getElem? hj)
    rw [h] at hm
    rcases spawner hm with ⟨h, _⟩ | ⟨h, n, hn⟩
    · exact he h
    · rw [h] at hn; cases hn
  by_cases hc : ∃ n, e.who = .conn n
  · obtain ⟨n, hn⟩ := hc
    rcases hi.before j e e.who hj (by simp [Event.parties]) he with h | ⟨p, hpj, par, hp⟩
    · exact absurd h hns
    · have hpm := hi.may _ (List.mem_of_getElem? hp)
      rcases spawner hpm with ⟨_, _, h⟩ | ⟨rfl, _⟩
      · exact absurd hn (h n)
      · obtain ⟨h1, h2⟩ := direct p _ .server hp (by simp [Event.parties]) (by simp) (by simp [hn]) (by simp)
        exact ⟨by omega, .trans h2 (.link hpj hp hj (.inl ⟨e.who, by simp [Event.parties], by simp [Event.parties]⟩))⟩
  · exact direct j e e.who hj (by simp [Event.parties]) he hns (fun n hn => hc ⟨n, hn⟩)

/-- The routes a connection uses were complete before. -/
theorem router_first {s : Setup} {st : State} (hi : Inv s st) {v : Var} {o : Gor} (ho : owner v = some o) {n i j : Nat} {a : Act}
    (ha : a = .rd v ∨ a = .wr v) (hw : st.trace[i]? = some ⟨o, .wr v⟩) (hj : st.trace[j]? = some ⟨.conn n, a⟩) :
    i < j ∧ HB st.trace i j := by
  obtain ⟨p, q, hpq, hqj, hp, hq⟩ := hi.served j n v o a ho ha hj
  have hip : i < p := by
    rcases Nat.lt_trichotomy i p with h | h | h
    · exact h
    · subst h; rw [hw] at hp; cases hp
    · refine absurd ?_ (pairwise_at hi.order h hp hw rfl)
      cases v <;> simp [owner] at ho <;> subst ho <;> simp [Bad]
  exact ⟨by omega, .trans (.link hip hw hp (.inl ⟨o, by simp [Event.parties], by simp [Event.parties]⟩)) (.trans
    (.link hpq hp hq (.inr ⟨.inl rfl, .inr rfl, .inl rfl⟩))
    (.link hqj hq hj (.inl ⟨.conn n, by simp [Event.parties], by simp [Event.parties]⟩)))⟩

/-- Before an interface hands over its first message nothing but `main` happens before its steps. -/
theorem quiet {s : Setup} {st : State} (hi : Inv s st) {k j : Nat} {e : Event} (hj : st.trace[j]? = some e)
    (he : e.who = .iface k) (hn : ∀ h, e.act ≠ .talk h)
    (hq : ∀ i < j, ∀ e', st.trace[i]? = some e' → e'.who = .iface k → ∀ h, e'.act ≠ .talk h) {i : Nat} (h : HB st.trace i j)
    {e' : Event} (he' : st.trace[i]? = some e') : e'.who = .iface k ∨ e'.who = .main := by
  let P : Nat → Prop := fun q => ∀ e, st.trace[q]? = some e → e.who = .iface k ∧ q ≤ j ∧ (∀ h, e.act ≠ .talk h) ∨ e.who = .main
  have hP : P i := by
    refine HB.back (P := P) ?_ h ?_
    · intro q r e1 e2 hqr h1 h2 hl hr e0 h0
      rw [h1] at h0
      cases h0
      have m1 := hi.may _ (List.mem_of_getElem? h1)
      have m2 := hi.may _ (List.mem_of_getElem? h2)
      rcases hr e2 h2 with ⟨w2, hrj, t2⟩ | w2
      · rcases hl with ⟨g, g1, g2⟩ | ⟨_, h, _⟩
        · have hg : g = .iface k := by
            simp only [Event.parties, List.mem_cons, w2] at g2
            rcases g2 with rfl | g2
            · rfl
            · cases ha : e2.act with
              | spawn x =>
                rw [ha] at m2
                rcases spawner m2 with ⟨h, _⟩ | ⟨h, _⟩ <;> rw [w2] at h <;> cases h
              | talk x => exact absurd ha (t2 x)
              | _ => simp [ha] at g2
          subst hg
          simp only [Event.parties, List.mem_cons] at g1
          rcases g1 with w1 | g1
          · exact .inl ⟨w1.symm, by omega, hq q (by omega) e1 h1 w1.symm⟩
          · cases ha : e1.act with
            | spawn x =>
              rw [ha] at m1
              simp only [ha, List.mem_singleton] at g1
              subst g1
              rcases spawner m1 with ⟨h, _⟩ | ⟨_, n, h⟩
              · exact .inr h
              · cases h
            | talk x =>
              rw [ha] at m1
              simp only [ha, List.mem_singleton] at g1
              subst g1
              rcases receiver m1 with h | h | h <;> cases h
            | _ => simp [ha] at g1
        · rw [w2] at m2
          rcases h with h | h <;> rw [h] at m2 <;> simp [May] at m2
      · rcases hl with ⟨g, g1, g2⟩ | ⟨_, h, _⟩
        · have hg : g = .main := by
            simp only [Event.parties, List.mem_cons, w2] at g2
            rcases g2 with rfl | g2
            · rfl
            · cases ha : e2.act with
              | spawn x =>
                simp only [ha, List.mem_singleton] at g2
                subst g2
                exact absurd g1 (pairwise_at hi.first hqr h1 h2 g ha)
              | talk x =>
                rw [ha, w2] at m2
                simp [May] at m2
              | _ => simp [ha] at g2
          subst hg
          simp only [Event.parties, List.mem_cons] at g1
          rcases g1 with w1 | g1
          · exact .inr w1.symm
          · cases ha : e1.act with
            | spawn x =>
              rw [ha] at m1
              simp only [ha, List.mem_singleton] at g1
              subst g1
              rcases spawner m1 with ⟨_, h, _⟩ | ⟨_, n, h⟩
              · exact absurd rfl h
              · cases h
            | talk x =>
              rw [ha] at m1
              simp only [ha, List.mem_singleton] at g1
              subst g1
              rcases receiver m1 with h | h | h <;> cases h
            | _ => simp [ha] at g1
        · rw [w2] at m2
          rcases h with h | h <;> rw [h] at m2 <;> simp [May] at m2
    · intro e0 h0
      rw [hj] at h0
      cases h0
      exact .inl ⟨he, Nat.le_refl _, hn⟩
  rcases hP e' he' with ⟨h, _⟩ | h
  · exact .inl h
  · exact .inr h

/-- The steps of the servers that hand nothing over. -/
def Front (e : Event) : Prop :=
  (e.who = .main ∨ e.who = .server ∨ e.who = .api ∨ e.who = .ui ∨ ∃ n, e.who = .conn n) ∧ ∀ h, e.act ≠ .talk h

/-- Only steps of the servers and of `main` happen before a step of a server. -/
theorem front {s : Setup} {st : State} (hi : Inv s st) {i j : Nat} {e e' : Event} (h : HB st.trace i j)
    (hi' : st.trace[i]? = some e) (hj : st.trace[j]? = some e') (hf : Front e') : Front e := by
  let P : Nat → Prop := fun q => ∀ e, st.trace[q]? = some e → Front e
  have hP : P i := by
    refine HB.back (P := P) ?_ h (fun e0 h0 => by rw [hj] at h0; cases h0; exact hf)
    intro q r e1 e2 hqr h1 h2 hl hr e0 h0
    rw [h1] at h0
    cases h0
    have m1 := hi.may _ (List.mem_of_getElem? h1)
    have m2 := hi.may _ (List.mem_of_getElem? h2)
    obtain ⟨w2, t2⟩ := hr e2 h2
    rcases hl with ⟨g, g1, g2⟩ | ⟨h, _, _⟩
    · have hg : g = e2.who := by
        simp only [Event.parties, List.mem_cons] at g2
        rcases g2 with rfl | g2
        · rfl
        · cases ha : e2.act with
          | spawn x =>
            simp only [ha, List.mem_singleton] at g2
            subst g2
            exact absurd g1 (pairwise_at hi.first hqr h1 h2 g ha)
          | talk x => exact absurd ha (t2 x)
          | _ => simp [ha] at g2
      subst hg
      simp only [Event.parties, List.mem_cons] at g1
      rcases g1 with w1 | g1
      · refine ⟨w1 ▸ w2, fun x hx => ?_⟩
        rw [hx, ← w1] at m1
        rcases w2 with w | w | w | w | ⟨n, w⟩
        · rw [w] at m1; simp [May] at m1
        · rw [w] at m1; simp [May] at m1
        · rw [w] at m1; simp [May] at m1
        · rw [w] at m1; simp [May] at m1
        · have := pairwise_at hi.order hqr h1 h2 w1.symm
          rw [← w1, w] at this
          exact this ⟨x, hx⟩
      · cases ha : e1.act with
        | spawn x =>
          rw [ha] at m1
          refine ⟨?_, fun y hy => by rw [ha] at hy; cases hy⟩
          rcases spawner m1 with ⟨h, _⟩ | ⟨h, _⟩
          · exact .inl h
          · exact .inr (.inl h)
        | talk x =>
          rw [ha] at m1
          simp only [ha, List.mem_singleton] at g1
          rw [g1] at w2
          rcases receiver m1 with h | h | h <;> rw [h] at w2 <;> simp at w2
        | _ => simp [ha] at g1
    · refine ⟨?_, fun x hx => by rcases h with h | h <;> rw [h] at hx <;> cases hx⟩
      cases hw : e1.who <;> rw [hw] at m1 <;> simp
      all_goals rcases h with h | h <;> rw [h] at m1 <;> simp [May] at m1
  exact hP e hi'

/-- Two connections are unordered once both servers have mounted their handlers. -/
theorem conns {s : Setup} {st : State} (hi : Inv s st) {i j n m : Nat} {e e' : Event} (hi' : st.trace[i]? = some e)
    (hj : st.trace[j]? = some e') (hn : e.who = .conn n) (hm : e'.who = .conn m) (hnm : n ≠ m)
    (ht' : ∀ h, e'.act ≠ .talk h)
    (hmount : ∀ q > i, ∀ x, st.trace[q]? = some x → x.act ≠ .mount) : ¬ HB st.trace i j := by
  intro h
  let P : Nat → Prop := fun q => q < i ∨ i < q ∧ ∀ e, st.trace[q]? = some e →
    (e.who = .conn m ∨ e.who = .server ∨ e.who = .main) ∧ ∀ h, e.act ≠ .talk h
  have hP : P i := by
    refine HB.back (P := P) ?_ h (.inr ⟨h.lt, fun e0 h0 => by rw [hj] at h0; cases h0; exact ⟨.inl hm, ht'⟩⟩)
    intro q r e1 e2 hqr h1 h2 hl hr
    rcases hr with hr | ⟨hir, hr⟩
    · exact .inl (by omega)
    · rcases Nat.lt_or_ge q i with hqi | hqi
      · exact .inl hqi
      have m1 := hi.may _ (List.mem_of_getElem? h1)
      have m2 := hi.may _ (List.mem_of_getElem? h2)
      obtain ⟨w2, t2⟩ := hr e2 h2
      rcases hl with ⟨g, g1, g2⟩ | ⟨l1, l2, l3⟩
      · have hg : g = e2.who := by
          simp only [Event.parties, List.mem_cons] at g2
          rcases g2 with rfl | g2
          · rfl
          · cases ha : e2.act with
            | spawn x =>
              simp only [ha, List.mem_singleton] at g2
              subst g2
              exact absurd g1 (pairwise_at hi.first hqr h1 h2 g ha)
            | talk x => exact absurd ha (t2 x)
            | _ => simp [ha] at g2
        subst hg
        have key : (e1.who = .conn m ∨ e1.who = .server ∨ e1.who = .main) ∧ ∀ h, e1.act ≠ .talk h := by
          simp only [Event.parties, List.mem_cons] at g1
          rcases g1 with w1 | g1
          · refine ⟨w1 ▸ w2, fun x hx => ?_⟩
            rw [hx, ← w1] at m1
            rcases w2 with w | w | w
            · have := pairwise_at hi.order hqr h1 h2 w1.symm
              rw [← w1, w] at this
              exact this ⟨x, hx⟩
            · rw [w] at m1; simp [May] at m1
            · rw [w] at m1; simp [May] at m1
          · cases ha : e1.act with
            | spawn x =>
              rw [ha] at m1
              refine ⟨?_, fun y hy => by cases hy⟩
              rcases spawner m1 with ⟨h, _⟩ | ⟨h, _⟩
              · exact .inr (.inr h)
              · exact .inr (.inl h)
            | talk x =>
              rw [ha] at m1
              simp only [ha, List.mem_singleton] at g1
              rw [g1] at w2
              rcases receiver m1 with h | h | h <;> rw [h] at w2 <;> simp at w2
            | _ => simp [ha] at g1
        right
        refine ⟨?_, fun e0 h0 => by rw [h1] at h0; cases h0; exact key⟩
        rcases Nat.eq_or_lt_of_le hqi with h | h
        · exfalso
          subst h
          rw [hi'] at h1
          cases h1
          rw [hn] at key
          simp at key
          omega
        · exact h
      · exfalso
        rcases l3 with l3 | l3
        · rcases Nat.eq_or_lt_of_le hqi with h | h
          · subst h
            rw [hi'] at h1
            cases h1
            rw [hn, l3] at m1
            simp [May] at m1
          · exact hmount q h e1 h1 l3
        · exact hmount r hir e2 h2 l3
  rcases hP with h | ⟨h, _⟩ <;> omega

theorem touch_talk {e : Event} {v : Var} (h : e.touches v) : ∀ g, e.act ≠ .talk g := fun g hg => by
  rcases h with h | h <;> rw [h] at hg <;> cases hg

/-! ## C111 -/

/-- **C111.** In every execution - whatever is configured, received and requested, however the goroutines are
interleaved - a variable is free of data races if no request writes it and, for the two variables of the CANUSB adapters, at
most one such adapter is configured. -/
theorem C111_free_partial {s : Setup} {tr : List Event} (h : Execution s tr) {v : Var}
    (hw : ∀ n, ⟨.conn n, .wr v⟩ ∉ tr)
    (hc : v = .fastPackets ∨ v = .partials → ∀ k k' : Nat, s.kinds[k]? = some .canusb → s.kinds[k']? = some .canusb → k = k') :
    ¬ Race tr v := by
  obtain ⟨st, hi, rfl⟩ := h.inv
  rintro ⟨i, j, ⟨x, a⟩, ⟨y, b⟩, hij, he, he', hne, ht, ht', hwr, hb⟩
  simp only [Event.touches] at ht ht' hwr hne
  have m1 : May s x a := hi.may _ (List.mem_of_getElem? he)
  have m2 : May s y b := hi.may _ (List.mem_of_getElem? he')
  have c1 : ∀ n, x = .conn n → a ≠ .wr v := fun n hn ha => hw n (by rw [← hn, ← ha]; exact List.mem_of_getElem? he)
  have c2 : ∀ n, y = .conn n → b ≠ .wr v := fun n hn ha => hw n (by rw [← hn, ← ha]; exact List.mem_of_getElem? he')
  -- if the writer is `main`, it comes first
  have main1 : x = .main → a = .wr v → False := by
    rintro rfl rfl
    exact hb (main_first hi he he' (fun e => hne e.symm)).2
  have main2 : y = .main → b = .wr v → False := by
    rintro rfl rfl
    have := (main_first hi he' he hne).1
    omega
  have own1 : ∀ o n, owner v = some o → x = o → a = .wr v → y = .conn n → False := by
    rintro o n ho rfl rfl rfl
    exact hb (router_first hi ho ht' he he').2
  have own2 : ∀ o n, owner v = some o → y = o → b = .wr v → x = .conn n → False := by
    rintro o n ho rfl rfl rfl
    have := (router_first hi ho ht he' he).1
    omega
  cases v with
  | setting z =>
    rcases hwr with rfl | rfl
    · cases x <;> simp [May] at m1 <;> simp_all
    · cases y <;> simp [May] at m2 <;> simp_all
  | interfaces =>
    rcases hwr with rfl | rfl
    · cases x <;> simp [May] at m1 <;> simp_all
    · cases y <;> simp [May] at m2 <;> simp_all
  | mappings =>
    rcases hwr with rfl | rfl
    · cases x <;> simp [May] at m1 <;> simp_all
    · cases y <;> simp [May] at m2 <;> simp_all
  | counters =>
    rcases ht with rfl | rfl <;> rcases ht' with rfl | rfl <;> cases x <;> simp [May] at m1 <;> cases y <;> simp [May] at m2 <;>
      simp_all
  | clients =>
    rcases ht with rfl | rfl <;> rcases ht' with rfl | rfl <;> cases x <;> simp [May] at m1 <;> cases y <;> simp [May] at m2 <;>
      simp_all
  | statClients =>
    rcases ht with rfl | rfl <;> rcases ht' with rfl | rfl <;> cases x <;> simp [May] at m1 <;> cases y <;> simp [May] at m2 <;>
      simp_all
  | fastPackets =>
    rcases ht with rfl | rfl <;> rcases ht' with rfl | rfl <;> cases x <;> simp [May] at m1 <;> cases y <;> simp [May] at m2 <;>
      exact hne (congrArg _ (hc (.inl rfl) _ _ m1 m2))
  | partials =>
    rcases ht with rfl | rfl <;> rcases ht' with rfl | rfl <;> cases x <;> simp [May] at m1 <;> cases y <;> simp [May] at m2 <;>
      exact hne (congrArg _ (hc (.inr rfl) _ _ m1 m2))
  | router =>
    rcases hwr with rfl | rfl
    · cases x <;> simp [May] at m1
      · cases hy : y <;> rw [hy] at m2 <;> rcases ht' with rfl | rfl <;> simp [May] at m2
        · exact hne hy.symm
        · exact hne hy.symm
        · exact own1 _ _ rfl rfl rfl hy
        · exact own1 _ _ rfl rfl rfl hy
      · exact c1 _ rfl rfl
    · cases y <;> simp [May] at m2
      · cases hx : x <;> rw [hx] at m1 <;> rcases ht with rfl | rfl <;> simp [May] at m1
        · exact hne hx
        · exact hne hx
        · exact own2 _ _ rfl rfl rfl hx
        · exact own2 _ _ rfl rfl rfl hx
      · exact c2 _ rfl rfl
  | apiRouter =>
    rcases hwr with rfl | rfl
    · cases x <;> simp [May] at m1
      cases hy : y <;> rw [hy] at m2 <;> rcases ht' with rfl | rfl <;> simp [May] at m2
      · exact hne hy.symm
      · exact own1 _ _ rfl rfl rfl hy
    · cases y <;> simp [May] at m2
      cases hx : x <;> rw [hx] at m1 <;> rcases ht with rfl | rfl <;> simp [May] at m1
      · exact hne hx
      · exact own2 _ _ rfl rfl rfl hx

/-- **C111.** The list of fast packets is raced for in an execution exactly if an adapter added to it and another one did
anything: two CANUSB adapters always race while they start. -/
theorem C111_adapters {s : Setup} {tr : List Event} (h : Execution s tr) (hf : 0 < s.fast) :
    Race tr .fastPackets ↔ ∃ k k', k ≠ k' ∧ s.kinds[k']? = some .canusb ∧ ⟨.iface k, .wr .fastPackets⟩ ∈ tr ∧
      ∃ e ∈ tr, e.who = .iface k' := by
  obtain ⟨st, hi, rfl⟩ := h.inv
  constructor
  · rintro ⟨i, j, ⟨x, a⟩, ⟨y, b⟩, hij, he, he', hne, ht, ht', hwr, hb⟩
    simp only [Event.touches] at ht ht' hwr hne
    have m1 : May s x a := hi.may _ (List.mem_of_getElem? he)
    have m2 : May s y b := hi.may _ (List.mem_of_getElem? he')
    have hx : ∃ k, x = .iface k ∧ s.kinds[k]? = some .canusb := by
      cases x <;> rcases ht with rfl | rfl <;> simp [May] at m1
      all_goals exact ⟨_, rfl, m1⟩
    have hy : ∃ k, y = .iface k ∧ s.kinds[k]? = some .canusb := by
      cases y <;> rcases ht' with rfl | rfl <;> simp [May] at m2
      all_goals exact ⟨_, rfl, m2⟩
    obtain ⟨k, rfl, hk⟩ := hx
    obtain ⟨k', rfl, hk'⟩ := hy
    have hkk : k ≠ k' := fun e => hne (congrArg _ e)
    rcases hwr with rfl | rfl
    · exact ⟨k, k', hkk, hk', List.mem_of_getElem? he, _, List.mem_of_getElem? he', rfl⟩
    · exact ⟨k', k, hkk.symm, hk, List.mem_of_getElem? he', _, List.mem_of_getElem? he, rfl⟩
  · rintro ⟨k, k', hkk, hk', hw, e, he, hek⟩
    obtain ⟨i, hi', hiw⟩ := List.mem_iff_getElem.1 hw
    have hi1 : st.trace[i]? = some ⟨.iface k, .wr .fastPackets⟩ := by rw [List.getElem?_eq_getElem hi', hiw]
    -- the first step of the other adapter
    have hb : Began st.trace k' := by
      cases hp : st.pc (.iface k') with
      | idle => exact absurd (by simp [Event.parties, hek]) (hi.fresh _ hp e he)
      | run l b =>
        rcases hi.reg k' l b hk' hf hp with h | ⟨_, h⟩
        · exact h
        · exact absurd hek (h e he)
    obtain ⟨j, hj, hjn⟩ := hb
    have hij : i ≠ j := fun e => by rw [e, hj] at hi1; simp at hi1
    rcases Nat.lt_or_gt_of_ne hij with hlt | hlt
    · refine ⟨i, j, _, _, hlt, hi1, hj, by simpa using hkk, .inr rfl, .inl rfl, .inl rfl, fun h => ?_⟩
      rcases quiet hi hj rfl (by simp) (fun q hq e' he' hw => absurd hw (hjn q hq e' he')) h hi1 with h | h
      · simp at h; exact hkk h
      · simp at h
    · refine ⟨j, i, _, _, hlt, hj, hi1, by simpa using hkk.symm, .inl rfl, .inr rfl, .inr rfl, fun h => ?_⟩
      have hq : ∀ q < i, ∀ e', st.trace[q]? = some e' → e'.who = .iface k → ∀ y, e'.act ≠ .talk y := by
        intro q hq e' he' hw y hy
        have := pairwise_at hi.order hq he' hi1 hw
        rw [hw] at this
        exact this ⟨⟨y, hy⟩, rfl⟩
      rcases quiet hi hi1 rfl (by simp) hq h hj with h | h
      · simp at h; exact hkk h.symm
      · simp at h

/-- **C111.** Whenever the goroutine that takes the messages has used a setting, a POST that fills this setting is a data
race. -/
theorem C111_settings {s : Setup} {tr : List Event} (h : Execution s tr) {v : Var} {i j n : Nat} {e : Event} (hij : i < j)
    (he : tr[i]? = some e) (hw : e.who = .consumer) (ht : e.touches v) (hp : tr[j]? = some ⟨.conn n, .wr v⟩) : Race tr v := by
  obtain ⟨st, hi, rfl⟩ := h.inv
  refine ⟨i, j, e, _, hij, he, hp, by simp [hw], ht, .inr rfl, .inr rfl, fun hb => ?_⟩
  have := (front hi hb he hp ⟨by simp, by simp⟩).1
  simp [hw] at this

/-- **C111.** Once both servers have mounted their handlers, what one connection writes (a POST, an installation) and
another one uses is a data race. -/
theorem C111_connections {s : Setup} {tr : List Event} (h : Execution s tr) {v : Var} {i j n m : Nat} {e e' : Event}
    (hij : i < j) (he : tr[i]? = some e) (he' : tr[j]? = some e') (hn : e.who = .conn n) (hm : e'.who = .conn m) (hnm : n ≠ m)
    (ht : e.touches v) (ht' : e'.touches v) (hw : e.act = .wr v ∨ e'.act = .wr v)
    (hmount : ∀ q > i, ∀ x, tr[q]? = some x → x.act ≠ .mount) : Race tr v := by
  obtain ⟨st, hi, rfl⟩ := h.inv
  refine ⟨i, j, e, e', hij, he, he', by simp [hn, hm, hnm], ht, ht', hw, ?_⟩
  exact conns hi he he' hn hm hnm (touch_talk ht') hmount

/-! Concrete executions: two CANUSB adapters; a message, then a POST that fills the broker's channel, then an installation while another
connection shows a page. -/

/-- Two adapters, no server. -/
def twoAdapters : Setup := ⟨false, [.canusb, .canusb], 2⟩

/-- `main` runs to its end, then both adapters begin. -/
def twoAdapters.schedule : List (Gor × Choice) :=
  List.replicate 54 (.main, .registered [true, false]) ++ [(.iface 1, .unit), (.iface 0, .unit), (.iface 0, .unit)]

/-- A file is played back and the server runs. -/
def served : Setup := ⟨true, [.file], 2⟩

/-- `main` and the servers run, a message is taken, then one connection posts the name of the channel and a second one shows
the page and installs an app. -/
def served.schedule : List (Gor × Choice) :=
  List.replicate 55 (.main, .unit) ++ List.replicate 2 (.api, .unit) ++ List.replicate 5 (.ui, .unit) ++
    [(.iface 0, .unit), (.iface 0, .message true)] ++ List.replicate 3 (.consumer, .unit) ++ [(.statHub, .unit)] ++
    List.replicate 5 (.consumer, .unit) ++
    [(.server, .accept 0), (.server, .unit), (.server, .accept 1), (.server, .unit), (.conn 0, .request (.post [.channel] false))] ++
    List.replicate 67 (.conn 0, .unit) ++ [(.conn 1, .request .page)] ++ List.replicate 34 (.conn 1, .unit) ++
    [(.conn 1, .request .install)] ++ List.replicate 3 (.conn 1, .unit) ++ [(.conn 0, .request .ui)] ++
    List.replicate 2 (.conn 0, .unit)

/-- The events of a schedule. -/
def eventsOf (s : Setup) (sched : List (Gor × Choice)) : List Event := ((run s sched (State.init s)).map (·.trace)).getD []

theorem eventsOf_execution {s : Setup} {sched : List (Gor × Choice)} (h : (run s sched (State.init s)).isSome = true) :
    Execution s (eventsOf s sched) := by
  obtain ⟨st, hst⟩ := Option.isSome_iff_exists.1 h
  exact ⟨sched, st, hst, by simp [eventsOf, hst]⟩

theorem twoAdapters_execution : Execution twoAdapters (eventsOf twoAdapters twoAdapters.schedule) :=
  eventsOf_execution (by decide +kernel)

theorem served_execution : Execution served (eventsOf served served.schedule) := eventsOf_execution (by decide +kernel)

/-- **C111** is false in general: two adapters race for the list of fast packets; a POST for the name of the channel with the
goroutine that takes the messages; an installation for the routes with another connection. -/
theorem C111_false : (∃ s tr, Execution s tr ∧ Race tr .fastPackets) ∧ (∃ s tr, Execution s tr ∧ Race tr (.setting .channel)) ∧
    ∃ s tr, Execution s tr ∧ Race tr .router := by
  refine ⟨⟨_, _, twoAdapters_execution, (C111_adapters twoAdapters_execution (by decide)).2 ⟨0, 1, by decide, rfl,
      by decide +kernel, ⟨.iface 1, .rd .fastPackets⟩, by decide +kernel, rfl⟩⟩,
    ⟨_, _, served_execution, ?_⟩, ⟨_, _, served_execution, ?_⟩⟩
  · exact C111_settings served_execution (i := 71) (j := 108) (n := 0) (e := ⟨.consumer, .rd (.setting .channel)⟩) (by decide)
      (by decide +kernel) rfl (.inl rfl) (by decide +kernel)
  · refine C111_connections served_execution (i := 177) (j := 179) (n := 1) (m := 0) (e := ⟨.conn 1, .wr .router⟩)
      (e' := ⟨.conn 0, .rd .router⟩) (by decide) (by decide +kernel) (by decide +kernel) rfl rfl (by decide) (.inr rfl) (.inl rfl)
      (.inl rfl) ?_
    have h : ∀ x ∈ (eventsOf served served.schedule).drop 178, x.act ≠ .mount := by decide +kernel
    intro q hq x hx
    refine h x (List.mem_of_getElem? (i := q - 178) ?_)
    rw [List.getElem?_drop, show 178 + (q - 178) = q by omega]
    exact hx

/-- The same execution has no race on what its requests do not write, with many steps of several goroutines that touch it. -/
example : ¬ Race (eventsOf served served.schedule) .counters ∧ ¬ Race (eventsOf served served.schedule) .apiRouter ∧
    ¬ Race (eventsOf served served.schedule) (.setting .assetPath) ∧
    (⟨.main, .wr (.setting .assetPath)⟩ ∈ eventsOf served served.schedule) ∧
    ⟨.ui, .rd (.setting .assetPath)⟩ ∈ eventsOf served served.schedule ∧
    ⟨.conn 1, .rd (.setting .assetPath)⟩ ∈ eventsOf served served.schedule := by
  have hn : ∀ e ∈ eventsOf served served.schedule, ∀ v, e.act = .wr v → v = .setting .channel ∨ v = .router ∨
      (e.who = .main ∨ e.who = .consumer ∨ e.who = .statHub ∨ e.who = .api ∨ e.who = .ui) := by
    have : ∀ e ∈ eventsOf served served.schedule, (match e.act with
        | .wr v => decide (v = .setting .channel ∨ v = .router ∨
            (e.who = .main ∨ e.who = .consumer ∨ e.who = .statHub ∨ e.who = .api ∨ e.who = .ui))
        | _ => true) = true := by decide +kernel
    intro e he v hv
    have := this e he
    rw [hv] at this
    simpa using this
  have hw : ∀ v, v ≠ .setting .channel → v ≠ .router → ∀ n, ⟨.conn n, .wr v⟩ ∉ eventsOf served served.schedule :=
    fun v h1 h2 n hm => by
      rcases hn _ hm v rfl with h | h | h
      · exact h1 h
      · exact h2 h
      · simp at h
  refine ⟨C111_free_partial served_execution (hw _ (by simp) (by simp)) (by simp),
    C111_free_partial served_execution (hw _ (by simp) (by simp)) (by simp),
    C111_free_partial served_execution (hw _ (by simp) (by simp)) (by simp), by decide +kernel, by decide +kernel, by decide +kernel⟩

end Argo.Main.Races
