import Verif.Go
import Verif.Hub.Model

set_option autoImplicit false

/-!
# Model of the consumer goroutine of main/argo.go (lines 156-211)

The goroutine that takes messages from `txch`, logs them, counts them and hands the results to the hubs
and to MQTT.  `res.Print` and `mapData.Delta` followed by `json.Marshal` are parameters here (they are
modelled in `Verif.Nmea2k` and `Verif.Signalk`); both may panic.
-/

namespace Argo.Main

open Argo

/-- `nmea2k.ParsedMessage` as the consumer sees it: the header and the rest. -/
structure Message (δ : Type) where
  header : RawMessage
  body : δ

/-- main/flags.go:28-37 `commandArgs`, the fields the consumer uses. -/
structure Opts where
  stats : Bool
  pgn : Int
  src : Int
  dst : Int

/-- main/flags.go:44-47: the defaults of `-statistic`, `-pgn`, `-source` and `-dest`. -/
def Opts.default : Opts := ⟨false, 0, 255, 255⟩

/-- `sysconf.Server.EnableWebsockets` and `sysconf.Mqtt.Enable`. -/
structure Outputs where
  websockets : Bool
  mqtt : Bool

/-- argo.go:114-115: the local `statLog map[string]uint64` and `statPgns`. -/
structure Stats where
  log : List (String × UInt64)
  pgns : List String
  deriving Repr, DecidableEq

/-- Before the first message. -/
def Stats.empty : Stats := ⟨[], []⟩

/-- Go map read `m[k]`. -/
def mapGet (m : List (String × UInt64)) (k : String) : Option UInt64 :=
  (m.find? (fun e => e.1 = k)).map Prod.snd

/-- Go map write `m[k] = v`. -/
def mapSet (m : List (String × UInt64)) (k : String) (v : UInt64) : List (String × UInt64) :=
  if m.any (fun e => e.1 = k) then m.map (fun e => if e.1 = k then (k, v) else e) else m ++ [(k, v)]

/-- argo.go:163-166: the display condition. -/
def shown (o : Opts) (h : RawMessage) : Bool :=
  (o.pgn == 0 || (h.pgn : Int) == o.pgn) &&
  (o.src == 255 || (h.source.toNat : Int) == o.src) &&
  (o.dst == 255 || (h.destination.toNat : Int) == o.dst) &&
  !o.stats

/-- argo.go:171-179: count one message.  `sort` is Go's `sort.Sort(statPgns)`, argo.go:47-51. -/
def count (sort : List String → List String) (s : Stats) (pgn : Nat) : Stats :=
  let k := toString pgn
  match mapGet s.log k with
  | some n => { s with log := mapSet s.log k (n + 1) }
  | none => { log := mapSet s.log k 1, pgns := sort (s.pgns ++ [k]) }

/-- What the goroutine does to the outside. -/
inductive Effect (β : Type) where
  /-- argo.go:167-168: the message with this header is logged -/
  | logged (header : RawMessage)
  /-- argo.go:181-184: `statistics_hub.broadcast <- b` with the JSON object of the counters -/
  | statistics (counters : List (String × UInt64))
  /-- argo.go:189-194: the terminal is cleared and the counters are printed -/
  | screen (lines : List (String × UInt64))
  /-- argo.go:200-202: `websocket_hub.broadcast <- bytes` -/
  | delta (bytes : β)
  /-- argo.go:204-206: `mqttClient.Publish` -/
  | publish (bytes : β)
  deriving DecidableEq

/-- argo.go:161-209: one iteration of the loop.  `print` and `delta` are the panicking parts. -/
def iteration {δ β : Type} (sort : List String → List String) (o : Opts) (out : Outputs)
    (print : Message δ → GoM Unit) (delta : Message δ → GoM (Option β)) (s : Stats) (m : Message δ) :
    GoM (Stats × List (Effect β)) := do
  let shownNow := shown o m.header
  if shownNow then print m
  let s' := count sort s m.header.pgn
  let d ← delta m
  pure (s',
    (if shownNow then [Effect.logged m.header] else []) ++
    (if out.websockets then [Effect.statistics s'.log] else []) ++
    (if o.stats then [Effect.screen (s'.pgns.map (fun k => (k, (mapGet s'.log k).getD 0)))] else []) ++
    match d with
    | none => []
    | some b => (if out.websockets then [Effect.delta b] else []) ++
                (if out.mqtt then [Effect.publish b] else []))

/-- argo.go:160-210: the loop over the messages received from `txch`. -/
def consume {δ β : Type} (sort : List String → List String) (o : Opts) (out : Outputs)
    (print : Message δ → GoM Unit) (delta : Message δ → GoM (Option β)) :
    Stats → List (Message δ) → GoM (Stats × List (Effect β))
  | s, [] => pure (s, [])
  | s, m :: ms => do
    let (s', e) ← iteration sort o out print delta s m
    let (s'', e') ← consume sort o out print delta s' ms
    pure (s'', e ++ e')

/-- argo.go:171-179 alone, over a history of PGNs. -/
def countAll (sort : List String → List String) (s : Stats) (pgns : List Nat) : Stats :=
  pgns.foldl (count sort) s

end Argo.Main
