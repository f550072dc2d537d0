import Verif.Signalk.Model

set_option autoImplicit false

/-!
# Model of main/packages.go
-/

namespace Argo.Packages

open Argo

/-- Byte strings. -/
abbrev Str := Signalk.Str

/-- packages.go:14-20 `nodePackage`. -/
structure Pkg where
  version : Str
  name : Str
  main : Str
  location : Str
  keywords : List Str
  deriving DecidableEq, Repr

/-- A directory: its entries in the order `ioutil.ReadDir` gives them (any order is covered).
`file name content` is anything that is not a directory for `ioutil.ReadDir` (which does not follow
symbolic links); `content` is what `ioutil.ReadFile` of it gives, `none` for an error.
`dir name listable sub` is a directory; `listable` says whether `ioutil.ReadDir` of it succeeds. -/
inductive Dir where
  | nil
  | file (name : Str) (content : Option Str) (rest : Dir)
  | dir (name : Str) (listable : Bool) (sub : Dir) (rest : Dir)
  deriving DecidableEq, Repr

/-- `ioutil.ReadFile` of the entry `name` (packages.go:95); reading a directory is an error. -/
def Dir.readFile : Dir → Str → Option Str
  | .nil, _ => none
  | .file n c rest, name => if n = name then c else rest.readFile name
  | .dir n _ _ rest, name => if n = name then none else rest.readFile name

/-- Whether `os.Stat` finds the entry (packages.go:104); other errors than absence are not modelled. -/
def Dir.has : Dir → Str → Bool
  | .nil, _ => false
  | .file n _ rest, name => n = name || rest.has name
  | .dir n _ _ rest, name => n = name || rest.has name

/-- The byte strings used in packages.go:90-111. -/
def atSign : UInt8 := 64
/-- `"/"`. -/
def slash : UInt8 := 47
/-- packages.go:94. -/
def dotBin : Str := Signalk.bs ".bin"
/-- packages.go:95. -/
def packageJson : Str := Signalk.bs "package.json"
/-- packages.go:104. -/
def indexHtml : Str := Signalk.bs "index.html"
/-- packages.go:99. -/
def webapp : Str := Signalk.bs "signalk-webapp"

/-- `strings.HasPrefix(name, "@")`, packages.go:90. -/
def isScope (name : Str) : Bool := name.head? = some atSign

/-- packages.go:126-133 `contains`. -/
def contains (s : List Str) (e : Str) : Bool :=
  match s with
  | [] => false
  | a :: as => if a = e then true else contains as e

/-- packages.go:100-107: the location.  `filepath.Join` is a parameter: it also cleans the path. -/
def location (join : Str → Str → Str) (p : Pkg) (sub : Dir) : Str :=
  let l := if p.location = [] then slash :: p.name else p.location
  if sub.has indexHtml then l else join l (Signalk.bs "/public")

/-- packages.go:80-124 `getInstalledPackages` of a directory that can be listed.  `pre` is what is left of
the path after stripping `node_modules/` (lines 110-111), with a slash at the end if it is not empty;
`parse` is `json.Unmarshal` into a `nodePackage`.  The map is modelled by the list of the assignments, in
order; `none` is the result `nil`. -/
def listing (parse : Str → Option Pkg) (join : Str → Str → Str) (pre : Str) : Dir → Option (List (Str × Pkg))
  | .nil => some []
  | .file _ _ rest => listing parse join pre rest
  | .dir name listable sub rest =>
    if isScope name then
      let inner := if listable then listing parse join (pre ++ name ++ [slash]) sub else none
      (listing parse join pre rest).map (inner.getD [] ++ ·)
    else if name = dotBin then listing parse join pre rest
    else
      match sub.readFile packageJson with
      | none => none
      | some text =>
        match parse text with
        | some p =>
          if contains p.keywords webapp then
            (listing parse join pre rest).map
              ((pre ++ name, { p with location := location join p sub }) :: ·)
          else listing parse join pre rest
        | none => listing parse join pre rest

/-- `getInstalledPackages("./node_modules")` as its callers use it (ui_server.go:137, 201): a nil map
behaves as an empty one. -/
def installed (parse : Str → Option Pkg) (join : Str → Str → Str) (listable : Bool) (d : Dir) :
    List (Str × Pkg) :=
  if listable then (listing parse join [] d).getD [] else []

/-- Reading the map, ui_server.go:141: the last assignment wins. -/
def mapGet (m : List (Str × Pkg)) (k : Str) : Option Pkg := (m.reverse.find? (fun e => e.1 = k)).map Prod.snd

/-! ## installPackage, packages.go:27-68 -/

/-- Where the goroutine of lines 37-62 is. -/
inductive GPc where
  | pipe      -- before line 40, `cmd.StdoutPipe()`
  | recv      -- at line 42, `<-ch`
  | scan      -- in the loop of lines 45-61
  | send      -- at the deferred `ch <- ""` of line 38
  | done
  deriving DecidableEq, Repr

/-- Where installPackage itself is. -/
inductive MPc where
  | send      -- at line 64, `chn <- ""`
  | start     -- before line 65, `cmd.Start()`
  | wait      -- at line 67, `cmd.Wait()`
  | returned
  deriving DecidableEq, Repr

/-- The state of an installation.  A byte of output is `true` if it is a newline. -/
structure Inst where
  g : GPc
  m : MPc
  /-- `cmd.StdoutPipe()` was called -/
  piped : Bool
  /-- yarn runs or ran, with its output connected to the pipe or not -/
  running : Option Bool
  /-- what yarn still has to print -/
  out : List Bool
  /-- what is in the pipe -/
  buf : List Bool
  /-- yarn has exited -/
  exited : Bool
  /-- the reading end was closed, by `cmd.Wait` or by a failed `cmd.Start` -/
  closed : Bool
  /-- length of the line being scanned -/
  line : Nat
  deriving DecidableEq, Repr

/-- Initially. -/
def Inst.init (out : List Bool) : Inst := ⟨.pipe, .send, false, none, out, [], false, false, 0⟩

/-- What a goroutine offers to do on the unbuffered channel of line 35. -/
inductive ChanOp where
  | snd
  | rcv
  deriving DecidableEq, Repr

/-- The goroutine: lines 42 and 38. -/
def GPc.offer : GPc → Option ChanOp
  | .recv => some .rcv
  | .send => some .snd
  | _ => none

/-- Where the goroutine goes once its channel operation is done. -/
def GPc.after : GPc → GPc
  | .recv => .scan
  | .send => .done
  | g => g

/-- installPackage: line 64, the only channel operation in it. -/
def MPc.offer : MPc → Option ChanOp
  | .send => some .snd
  | _ => none

/-- Where installPackage goes once its channel operation is done. -/
def MPc.after : MPc → MPc
  | .send => .start
  | m => m

/-- One step of some goroutine or of yarn.  `lim` is the longest line of a `bufio.Scanner` (65536), `cap`
the capacity of a pipe.  Simplifications: the scanner reads byte by byte; `cmd.StdoutPipe` itself does not
fail (its error is ignored, and a failure would make line 45 panic); yarn's standard output is all it
writes and it exits when it has written all of it. -/
inductive Step (lim cap : Nat) : Inst → Inst → Prop
  /-- line 40 -/
  | pipe (s : Inst) : s.g = .pipe → Step lim cap s { s with g := .recv, piped := true }
  /-- the goroutine receives what installPackage sends -/
  | toG (s : Inst) : s.g.offer = some .rcv → s.m.offer = some .snd →
      Step lim cap s { s with g := s.g.after, m := s.m.after }
  /-- installPackage receives what the goroutine sends -/
  | toM (s : Inst) : s.g.offer = some .snd → s.m.offer = some .rcv →
      Step lim cap s { s with g := s.g.after, m := s.m.after }
  /-- line 65, yarn is found; its output goes to the pipe if there is one -/
  | startOk (s : Inst) : s.m = .start → Step lim cap s { s with m := .wait, running := some s.piped }
  /-- line 65, yarn cannot be started: the error is ignored and the pipe is closed -/
  | startFail (s : Inst) : s.m = .start → Step lim cap s { s with m := .wait, closed := true }
  /-- yarn prints a byte, if there is room -/
  | print (s : Inst) (b : Bool) (rest : List Bool) : s.running = some true → s.out = b :: rest →
      s.buf.length < cap → Step lim cap s { s with out := rest, buf := s.buf ++ [b] }
  /-- without a pipe the output is discarded -/
  | discard (s : Inst) (b : Bool) (rest : List Bool) : s.running = some false → s.out = b :: rest →
      Step lim cap s { s with out := rest }
  /-- yarn exits -/
  | exit (s : Inst) : s.running ≠ none → s.out = [] → s.exited = false →
      Step lim cap s { s with exited := true }
  /-- line 67, yarn has exited: `cmd.Wait` closes the pipe and returns -/
  | wait (s : Inst) : s.m = .wait → s.exited = true → Step lim cap s { s with m := .returned, closed := true }
  /-- line 67, yarn was not started: an error is returned -/
  | waitFail (s : Inst) : s.m = .wait → s.running = none → Step lim cap s { s with m := .returned }
  /-- line 45, a newline: a line is scanned and processed -/
  | scanLine (s : Inst) (rest : List Bool) : s.g = .scan → s.closed = false → s.buf = true :: rest →
      Step lim cap s { s with buf := rest, line := 0 }
  /-- line 45, another byte -/
  | scanByte (s : Inst) (rest : List Bool) : s.g = .scan → s.closed = false → s.buf = false :: rest →
      s.line + 1 < lim → Step lim cap s { s with buf := rest, line := s.line + 1 }
  /-- line 45, the line is too long: `scanner.Scan` returns false -/
  | tooLong (s : Inst) (rest : List Bool) : s.g = .scan → s.closed = false → s.buf = false :: rest →
      lim ≤ s.line + 1 → Step lim cap s { s with g := .send, buf := rest, line := s.line + 1 }
  /-- line 45, the end of the output -/
  | eof (s : Inst) : s.g = .scan → s.closed = false → s.exited = true → s.buf = [] →
      Step lim cap s { s with g := .send }
  /-- line 45, reading from a closed pipe fails -/
  | readClosed (s : Inst) : s.g = .scan → s.closed = true → Step lim cap s { s with g := .send }

/-- Reachable in some number of steps. -/
inductive Run (lim cap : Nat) : Inst → Nat → Inst → Prop
  | refl (s : Inst) : Run lim cap s 0 s
  | tail {s t u : Inst} {n : Nat} : Run lim cap s n t → Step lim cap t u → Run lim cap s (n + 1) u

end Argo.Packages
