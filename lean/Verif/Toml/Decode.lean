import Mathlib.Data.List.Dedup
import Verif.Toml.Spec
import Verif.Toml.Model

set_option autoImplicit false

/-!
# Model of toml.DecodeFile into a TomlConfig, config/config.go:103-108

The library looks up every key of the file among the fields of the struct, first exactly, then ignoring case.
Simplifications: two keys of one table that differ only in case are not told apart (the first counts), a value
where a table is expected is passed over, and of other letters than ASCII ones none are equal to another.
-/

namespace Argo.Toml

open Argo Config

/-- A name in small letters. -/
def lower (s : Str) : Str := s.map (fun b => if 65 ≤ b.toNat ∧ b.toNat ≤ 90 then b + 32 else b)

/-- Where a setting stands in the file: config.go:30-81, argo.conf.sample. -/
def place : Setting → List Str
  | .logLevel => [Signalk.bs "LogLevel"]
  | .mapFile => [Signalk.bs "MapFile"]
  | .enableWebsockets => [Signalk.bs "Server", Signalk.bs "EnableWebsockets"]
  | .serverUseTls => [Signalk.bs "Server", Signalk.bs "UseTls"]
  | .serverPort => [Signalk.bs "Server", Signalk.bs "Port"]
  | .listenOn => [Signalk.bs "Server", Signalk.bs "ListenOn"]
  | .assetPath => [Signalk.bs "Server", Signalk.bs "AssetPath"]
  | .certificate => [Signalk.bs "Server", Signalk.bs "Certificate"]
  | .publicKeyFile => [Signalk.bs "Server", Signalk.bs "PublicKeyFile"]
  | .privateKeyFile => [Signalk.bs "Server", Signalk.bs "PrivateKeyFile"]
  | .mqttEnable => [Signalk.bs "Mqtt", Signalk.bs "Enable"]
  | .mqttUseTls => [Signalk.bs "Mqtt", Signalk.bs "UseTls"]
  | .mqttPort => [Signalk.bs "Mqtt", Signalk.bs "Port"]
  | .mqttHost => [Signalk.bs "Mqtt", Signalk.bs "Host"]
  | .clientId => [Signalk.bs "Mqtt", Signalk.bs "ClientId"]
  | .username => [Signalk.bs "Mqtt", Signalk.bs "Username"]
  | .password => [Signalk.bs "Mqtt", Signalk.bs "Password"]
  | .channel => [Signalk.bs "Mqtt", Signalk.bs "Channel"]
  | .vesselName => [Signalk.bs "Vessel", Signalk.bs "Name"]
  | .manufacturer => [Signalk.bs "Vessel", Signalk.bs "Manufacturer"]
  | .model => [Signalk.bs "Vessel", Signalk.bs "Model"]
  | .year => [Signalk.bs "Vessel", Signalk.bs "Year"]
  | .mmsi => [Signalk.bs "Vessel", Signalk.bs "Mmsi"]
  | .callsign => [Signalk.bs "Vessel", Signalk.bs "Callsign"]
  | .registration => [Signalk.bs "Vessel", Signalk.bs "Registration"]
  | .uuid => [Signalk.bs "Vessel", Signalk.bs "Uuid"]
  | .uuid0 => [Signalk.bs "Vessel", Signalk.bs "Uuid0"]
  | .uuid1 => [Signalk.bs "Vessel", Signalk.bs "Uuid1"]
  | .uuid2 => [Signalk.bs "Vessel", Signalk.bs "Uuid2"]
  | .uuid3 => [Signalk.bs "Vessel", Signalk.bs "Uuid3"]
  | .uuid4 => [Signalk.bs "Vessel", Signalk.bs "Uuid4"]

/-- A value of the file as a Go value. -/
def toScalar : Value → Scalar
  | .str s => .str s
  | .int n => .int n
  | .bool b => .bool b

/-- The value the file gives for a setting (config.go:106). -/
def setting (vs : List (List Str × Value)) (s : Setting) : Option Scalar :=
  if inToml s then (vs.find? (fun e => e.1.map lower = (place s).map lower)).map (fun e => toScalar e.2) else none

/-- The place of the field `f` of the interface `n`. -/
def isMember (n f : Str) (p : List Str) : Bool :=
  match p with
  | [a, b, c] => lower a = Signalk.bs "interfaces" && b = n && lower c = f
  | _ => false

/-- The value the file gives for a field of the interface `n`. -/
def member (vs : List (List Str × Value)) (n f : Str) : Option Value :=
  (vs.find? (fun e => isMember n f e.1)).map Prod.snd

/-- A field of type string: absent is empty, another type is an error (the outer `none`). -/
def asText : Option Value → Option Str
  | none => some []
  | some (.str s) => some s
  | some _ => none

/-- A field of type uint: `uint64(num)`. -/
def asSpeed : Option Value → Option Nat
  | none => some 0
  | some (.int n) => some (n % 2 ^ 64).toNat
  | some _ => none

/-- The interface `n`, config.go:61-65. -/
def interface (vs : List (List Str × Value)) (n : Str) : Option Interface :=
  match asText (member vs n (Signalk.bs "path")), asText (member vs n (Signalk.bs "type")), asSpeed (member vs n (Signalk.bs "speed")) with
  | some p, some t, some s => some ⟨p, t, s⟩
  | _, _, _ => none

/-- All interfaces, or `none` if one of them is wrong. -/
def interfaces (vs : List (List Str × Value)) : List Str → Option (List (Str × Interface))
  | [] => some []
  | n :: ns =>
    match interface vs n, interfaces vs ns with
    | some i, some l => some ((n, i) :: l)
    | _, _ => none

/-- The name of the interface that the header of a table belongs to. -/
def nameIn (p : List Str) : Option Str :=
  match p with
  | a :: n :: _ => if lower a = Signalk.bs "interfaces" then some n else none
  | _ => none

/-- config.go:106: what a file says, for `TomlConfig`. -/
def docOf (r : List (List Str) × List (List Str × Value)) : Option Doc :=
  match interfaces r.2 ((r.1.filterMap nameIn).dedup) with
  | none => none
  | some l => some ⟨setting r.2, l⟩

/-- config.go:106 `toml.DecodeFile`: `none` if there is no such file, or it is not TOML, or of other types.  The
library reads control characters in strings, unlike TOML. -/
def fileDoc (file : Option Str) : Option Doc :=
  match file with
  | none => none
  | some t =>
    match read false t with
    | none => none
    | some r => docOf r

/-- config.go:103-124 `ReadConfig` on the files of the machine. -/
def readFile (fs : FS) (name : Str) : Conf × Bool := readConfig (fileDoc (fs name))

end Argo.Toml
