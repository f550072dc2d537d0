import Verif.Canusb.Model
import Verif.Actisense.Model
import Verif.Nmea2k.Model
import Verif.Signalk.Model

set_option autoImplicit false

/-!
# Model of processInterface (main/argo.go:225-319)

One goroutine per configured interface.  Its result is the list of what it does, oldest first, as a
function of what the operating system, the serial port and the file give it; a blocked hand-over over
`txch` delays it, nothing else.  `nmea2k.ParsePacket` is a parameter `parse` (it always returns or panics,
C45); logging and the pauses are not modelled.
-/

namespace Argo.Iface

open Argo
open Argo.Nmea2k (Pgn Parsed Val)

/-- Byte strings. -/
abbrev Str := Signalk.Str

/-- `iface.Type` as argo.go:254, 283, 299 and 314 distinguish it. -/
inductive Device where
  | canusb
  | actisense
  | file
  | other
  deriving DecidableEq, Repr

/-- argo.go:229-234: what `syscall.Stat` says of `iface.Path`. -/
inductive Kind where
  | missing
  | charDevice
  | other
  deriving DecidableEq, Repr

/-- Where processInterface is after its set-up. -/
inductive Start where
  /-- `log.Fatalf`: the process exits with status 1 -/
  | exit
  /-- a method of a nil port is called: the panic ends the process -/
  | nilPort
  /-- at the loop of argo.go:272, with the port and the registry of fast packets -/
  | canusb (p : Canusb.CanPort) (fp : List Nat)
  /-- at the loop of argo.go:291 -/
  | actisense (p : Port)
  /-- at argo.go:301 -/
  | file

/-- argo.go:257-262: the fast packets of the table are added to the registry. -/
def addFastPackets (tbl : List Pgn) (fp : List Nat) : List Nat :=
  tbl.foldl (fun fp p => if p.size > 8 then Canusb.AddFastPacket p.pgn fp else fp) fp

/-- argo.go:251-319 up to the loops; `none` is a nil `io.ReadWriteCloser`.  The errors of `OpenChannel` are
discarded (lines 268 and 286), so that its nil result is used; calling `Write` on a nil interface panics
in `OpenChannel` already.  `fp` and `group` are the package variables of canusb. -/
def configure (tbl : List Pgn) (fp : List Nat) (group : Byte) : Device → Option Port → GoM Start
  | .canusb, none => .ok .nilPort
  | .canusb, some port => do
    let ((p, _), _) ← Canusb.OpenChannel port group 221
    match p with
    | none => return .nilPort
    | some p => return .canusb p (addFastPackets tbl fp)
  | .actisense, none => .ok .nilPort
  | .actisense, some port =>
    let ((ok, _), port) := Actisense.OpenChannel port
    if ok then .ok (.actisense ((Actisense.Cmd.GetOperatingMode.run port).2)) else .ok .nilPort
  | .file, _ => .ok .file
  | .other, _ => .ok .exit

/-- argo.go:225-319 up to the loops; `serialOpen` is the result of `serial.Open` (line 245). -/
def start (tbl : List Pgn) (fp : List Nat) (group : Byte) (kind : Kind) (serialOpen : Option Port)
    (d : Device) : GoM Start :=
  match kind with
  | .missing => .ok .exit
  | .charDevice =>
    match serialOpen with
    | none => .ok .exit
    | some port => configure tbl fp group d (some port)
  | .other => configure tbl fp group d none

/-- What the goroutine does. -/
inductive Act where
  /-- an error is logged -/
  | warned
  /-- a new address is claimed (argo.go:275-277) -/
  | claimed (address : Byte)
  /-- a message is sent on `txch` -/
  | handed (m : Parsed)
  /-- a panic ends the process -/
  | died
  deriving DecidableEq

/-- The message `Read` returned, with what is behind its data in memory. -/
def rawOf (v : MsgView) (mem : List Byte) : RawMessage :=
  ⟨v.priority, v.pgn, v.source, v.destination, v.length, ⟨v.data, mem⟩⟩

/-- argo.go:272-282: the loop of a CANUSB interface over the results of `Read`.  `mem k` is what lies
behind the data of the k-th message in memory (up to its capacity). -/
def canusbLoop (parse : RawMessage → GoM Parsed) (mem : Nat → List Byte) :
    Nat → Canusb.CanPort → List Canusb.Obs → List Act × Canusb.CanPort
  | _, p, [] => ([], p)
  | k, p, .ioErr :: os =>
    let (a, q) := canusbLoop parse mem k p os
    (.warned :: a, q)
  | _, p, .crash :: _ => ([.died], p)
  | k, p, .msg v :: os =>
    match Canusb.conflictStep p v with
    | .error _ => ([.died], p)
    | .ok q =>
      let c := if v.pgn == 60928 && v.source == p.a then [Act.claimed q.a] else []
      match parse (rawOf v (mem k)) with
      | .error _ => (c ++ [.died], q)
      | .ok m =>
        let (a, r) := canusbLoop parse mem (k + 1) q os
        (c ++ .handed m :: a, r)

/-- argo.go:291-298: the loop of an NGT-1 interface over the results of `Read`. -/
def actisenseLoop (parse : RawMessage → GoM Parsed) : List Actisense.Obs → List Act
  | [] => []
  | .ioErr :: os => .warned :: actisenseLoop parse os
  | .crash _ :: _ => [.died]
  | .msg m :: os =>
    match parse m with
    | .error _ => [.died]
    | .ok r => .handed r :: actisenseLoop parse os

/-! ## Files -/

/-- `dropCR` of package bufio. -/
def dropCR (l : Str) : Str := if l.getLast? = some 13 then l.dropLast else l

/-- `bufio.Scanner` with `ScanLines`, the tokens of a file with the given content; `acc` is the line begun.
A line that does not fit into the buffer of 65536 bytes ends the scan (`bufio.MaxScanTokenSize`,
`ErrTooLong`). -/
def scanLines : Str → Str → List Str
  | acc, [] => if acc = [] then [] else if acc.length < 65536 then [dropCR acc] else []
  | acc, c :: cs =>
    if c = 10 then
      if acc.length < 65536 then dropCR acc :: scanLines [] cs else []
    else scanLines (acc ++ [c]) cs

/-- parsed_message.go:65-71 and 90-96: the message made by FromCanBoat; its header has no data. -/
def ofCanBoat (r : Nmea2k.CanBoatParsed Val) : Parsed :=
  ⟨⟨r.priority, r.pgn, r.source, r.destination, 0, ⟨[], []⟩⟩, r.index, r.data⟩

/-- argo.go:304-313: the loop over the lines.  The values of a JSON object are represented by `Val`. -/
def fileLoop (tbl : List Pgn) (unmarshal : Str → Nmea2k.CanBoat Val) : List Str → List Act
  | [] => []
  | l :: ls =>
    match Nmea2k.fromCanBoat tbl unmarshal l with
    | .error _ => [.died]
    | .ok none => .warned :: fileLoop tbl unmarshal ls
    | .ok (some r) => .handed (ofCanBoat r) :: fileLoop tbl unmarshal ls

/-- argo.go:299-313: a file interface.  `content` is what can be read, `none` if `os.Open` fails (its error
is ignored: the scanner then finds nothing). -/
def fileActs (tbl : List Pgn) (unmarshal : Str → Nmea2k.CanBoat Val) (content : Option Str) : List Act :=
  match content with
  | none => []
  | some c => fileLoop tbl unmarshal (scanLines [] c)

/-- The messages handed over. -/
def handed (as : List Act) : List Parsed :=
  as.filterMap (fun a => match a with | .handed m => some m | _ => none)

/-- argo.go:225-319: an NGT-1 interface whose serial port delivers `evs`, after its set-up. -/
def actisenseActs (parse : RawMessage → GoM Parsed) (g : Nat → Nat) (evs : List Ev) : List Act :=
  actisenseLoop parse (Actisense.session g Actisense.RState.init evs).1

/-- A CANUSB interface whose serial port delivers `evs`, after its set-up; `m` are the partial messages
(a package variable). -/
def canusbActs (parse : RawMessage → GoM Parsed) (mem : Nat → List Byte) (g : Nat → Nat) (fp : List Nat)
    (m : Canusb.Partials) (p : Canusb.CanPort) (evs : List Ev) : List Act × Canusb.CanPort :=
  canusbLoop parse mem 0 p (Canusb.session g fp Canusb.RState.init m evs).1

end Argo.Iface
