import Verif.Signalk.Model

set_option autoImplicit false

/-!
# Model of config/config.go and of adminHandler (main/ui_server.go:95-116)

`TomlConfig` is modelled as a function from its scalar fields (`Setting`) to values, plus the map of
interfaces: `mergo.Merge` walks the struct by reflection and treats every scalar field alike.  The TOML
and JSON libraries are modelled by what they produce: for every key, a value or nothing.
-/

namespace Argo.Config

open Argo

/-- Byte strings. -/
abbrev Str := Signalk.Str

/-- The scalar fields of `TomlConfig`, config.go:30-81. -/
inductive Setting where
  | logLevel | mapFile
  -- serverConfig, config.go:39-48
  | enableWebsockets | serverUseTls | serverPort | listenOn | assetPath | certificate | publicKeyFile
  | privateKeyFile
  -- mqttConfig, config.go:50-59
  | mqttEnable | mqttUseTls | mqttPort | mqttHost | clientId | username | password | channel
  -- VesselConfig, config.go:67-81
  | vesselName | manufacturer | model | year | mmsi | callsign | registration | uuid
  | uuid0 | uuid1 | uuid2 | uuid3 | uuid4
  deriving DecidableEq, Repr

/-- Go values of the fields. -/
inductive Scalar where
  | str (s : Str)
  | int (n : Int)
  | bool (b : Bool)
  deriving DecidableEq, Repr

/-- The Go zero value of a field, config.go:30-81. -/
def zeroOf : Setting → Scalar
  | .enableWebsockets | .serverUseTls | .mqttEnable | .mqttUseTls => .bool false
  | .serverPort | .mqttPort | .year | .mmsi => .int 0
  | _ => .str []

/-- Same Go type. -/
def Scalar.sameType : Scalar → Scalar → Bool
  | .str _, .str _ => true
  | .int _, .int _ => true
  | .bool _, .bool _ => true
  | _, _ => false

/-- Fields that TOML reads and writes: all but those tagged `toml:"-"`, config.go:45 and 76-80. -/
def inToml : Setting → Bool
  | .certificate | .uuid0 | .uuid1 | .uuid2 | .uuid3 | .uuid4 => false
  | _ => true

/-- config.go:61-65 `InterfaceConfig`. -/
structure Interface where
  path : Str
  type : Str
  speed : Nat
  deriving DecidableEq, Repr

/-- config.go:30-37 `TomlConfig`. -/
structure Conf where
  val : Setting → Scalar
  interfaces : List (Str × Interface)

/-- What a TOML or JSON text says: a value for some of the keys, and interfaces. -/
structure Doc where
  val : Setting → Option Scalar
  interfaces : List (Str × Interface)

/-- The zero `TomlConfig` (`var config TomlConfig`, config.go:104). -/
def Conf.zero : Conf := ⟨zeroOf, []⟩

/-- config.go:83-101 `defaultConfig`. -/
def defaultVal : Setting → Scalar
  | .logLevel => .str (Signalk.bs "INFO")
  | .mapFile => .str (Signalk.bs "map.xml")
  | .assetPath => .str (Signalk.bs "./assets")
  | .enableWebsockets => .bool true
  | .serverPort => .int 8080
  | .mqttEnable => .bool false
  | .mqttUseTls => .bool true
  | .mqttHost => .str (Signalk.bs "localhost")
  | .mqttPort => .int 8883
  | .clientId => .str (Signalk.bs "argo")
  | .username => .str (Signalk.bs "signalk")
  | .password => .str (Signalk.bs "signalk")
  | .channel => .str (Signalk.bs "signalk/argo")
  | s => zeroOf s

/-- config.go:83-101 `defaultConfig`. -/
def defaultConfig : Conf := ⟨defaultVal, []⟩

/-- Decoding a document into a zero `TomlConfig`: `toml.DecodeFile` (config.go:106, `visible = inToml`)
and `json.Decoder.Decode` (ui_server.go:99, all fields).  A value of the wrong type is an error. -/
def decode (visible : Setting → Bool) (d : Doc) (all : List Setting) : Option Conf :=
  if all.all (fun s => match d.val s with
      | none => true
      | some v => !visible s || v.sameType (zeroOf s))
  then some ⟨fun s => if visible s then (d.val s).getD (zeroOf s) else zeroOf s, d.interfaces⟩
  else none

/-- All fields. -/
def settings : List Setting :=
  [.logLevel, .mapFile, .enableWebsockets, .serverUseTls, .serverPort, .listenOn, .assetPath, .certificate,
    .publicKeyFile, .privateKeyFile, .mqttEnable, .mqttUseTls, .mqttPort, .mqttHost, .clientId, .username,
    .password, .channel, .vesselName, .manufacturer, .model, .year, .mmsi, .callsign, .registration, .uuid,
    .uuid0, .uuid1, .uuid2, .uuid3, .uuid4]

/-- Map read. -/
def mapGet (m : List (Str × Interface)) (k : Str) : Option Interface :=
  (m.find? (fun e => e.1 = k)).map Prod.snd

/-- `mergo.Merge(&dst, src)` (config.go:110, ui_server.go:105), from the documentation of the library: a
field of `dst` is set from `src` only if it has its zero value; of a map, only missing keys are added. -/
def merge (dst src : Conf) : Conf :=
  ⟨fun s => if dst.val s = zeroOf s then src.val s else dst.val s,
   dst.interfaces ++ src.interfaces.filter (fun e => (mapGet dst.interfaces e.1).isNone)⟩

/-- `strings.Split(s, "-")`. -/
def splitDash : Str → List Str
  | [] => [[]]
  | c :: cs => if c = 45 then [] :: splitDash cs else
    match splitDash cs with
    | p :: ps => (c :: p) :: ps
    | [] => [[c]]

/-- config.go:114-121: the parts of the UUID. -/
def setParts (c : Conf) : Conf :=
  match c.val .uuid with
  | .str u =>
    match splitDash u with
    | [a, b, d, e, f] =>
      { c with val := fun s => match s with
          | .uuid0 => .str a
          | .uuid1 => .str b
          | .uuid2 => .str d
          | .uuid3 => .str e
          | .uuid4 => .str f
          | s => c.val s }
    | _ => c
  | _ => c

/-- config.go:103-124 `ReadConfig` of a file with the given content (`none`: it cannot be read or is not
TOML): the configuration and whether there was no error. -/
def readConfig (d : Option Doc) : Conf × Bool :=
  match d with
  | none => (defaultConfig, false)
  | some d =>
    match decode inToml d settings with
    | none => (defaultConfig, false)
    | some c => (setParts (merge c defaultConfig), true)

/-- config.go:126-140 `WriteConfig`, `toml.NewEncoder(buf).Encode(config)`: what the file written says. -/
def written (c : Conf) : Doc := ⟨fun s => if inToml s then some (c.val s) else none, c.interfaces⟩

/-- ui_server.go:95-116 `adminHandler` for a POST with the given JSON (`none`: not JSON): the new
`sysconf`, and what is saved. -/
def admin (sysconf : Conf) (posted : Option Doc) : Conf × Option Doc :=
  match posted with
  | none => (sysconf, none)
  | some d =>
    match decode (fun _ => true) d settings with
    | none => (sysconf, none)
    | some data => (merge sysconf data, some (written (merge sysconf data)))

/-! ## Files -/

/-- A file system: the content of every file, `none` when absent. -/
abbrev FS := Str → Option Str

/-- File operations; each is atomic as far as a dying process is concerned. -/
inductive FileOp where
  /-- `os.Create`, or `ioutil.WriteFile` opening its file: the file exists and is empty -/
  | create (name : Str)
  /-- one `write` system call: bytes are appended -/
  | append (name : Str) (bytes : Str)
  deriving DecidableEq, Repr

/-- Effect of one operation (`os.Create` truncates, `write` on the single open descriptor appends). -/
def FileOp.apply (fs : FS) : FileOp → FS
  | .create name => fun n => if n = name then some [] else fs n
  | .append name bytes => fun n => if n = name then some ((fs n).getD [] ++ bytes) else fs n

/-- Effect of a sequence of operations. -/
def applyAll (fs : FS) (ops : List FileOp) : FS := ops.foldl FileOp.apply fs

/-- The name of the file saved, ui_server.go:107 and 109. -/
def confName : Str := Signalk.bs "argo.conf"
/-- The name of the backup, ui_server.go:108. -/
def bakName : Str := Signalk.bs "argo.conf~"

/-- Writing a file in the given pieces: `ioutil.WriteFile`, and `os.Create` followed by `f.Write`. -/
def writeFile (name : Str) (pieces : List Str) : List FileOp :=
  .create name :: pieces.map (.append name)

/-- ui_server.go:107-109: the file operations of a save: the content of argo.conf is read (`tmp`, empty
when that fails) and written to argo.conf~ in some pieces, then the new text is written to argo.conf in
some pieces (config.go:131-134).  The results of the writes are ignored: the pieces are what was really
written. -/
def saveOps (bakPieces confPieces : List Str) : List FileOp :=
  writeFile bakName bakPieces ++ writeFile confName confPieces

end Argo.Config
