import Verif.Config.Page
import Verif.Playback.Agree
import Verif.Playback.Props

set_option autoImplicit false

/-!
# C133: what is posted to /admin, byte by byte

main/ui_server.go:95-116 (`json.NewDecoder(r.Body).Decode(&data)` into the zero `TomlConfig`) and assets/js/site.js:134-171 (the
text that the settings page posts).  encoding/json: `Playback/Reader.lean`.
-/

namespace Argo.Config

open Argo
open Argo.Json (Json)
open Argo.Signalk (bs)

/-! ## Model: encoding/json into a TomlConfig -/

/-- The bytes of a Go string. -/
def utf8 (cs : List Char) : Str := cs.flatMap String.utf8EncodeChar

/-- decode.go, `object`: the field with this name, in any case (no two fields of a struct differ only in case). -/
def lookup {β : Type} (keys : List (String × β)) (k : List Char) : Option β :=
  (keys.find? fun e => k.map Playback.fold = e.1.toList.map Playback.fold).map Prod.snd

/-- config.go:39-48 -/
def serverKeys : List (String × Setting) :=
  [("EnableWebsockets", .enableWebsockets), ("UseTls", .serverUseTls), ("Port", .serverPort), ("ListenOn", .listenOn),
   ("AssetPath", .assetPath), ("Certificate", .certificate), ("PublicKeyFile", .publicKeyFile), ("PrivateKeyFile", .privateKeyFile)]

/-- config.go:50-59 -/
def mqttKeys : List (String × Setting) :=
  [("Enable", .mqttEnable), ("UseTls", .mqttUseTls), ("Port", .mqttPort), ("Host", .mqttHost), ("ClientId", .clientId),
   ("Username", .username), ("Password", .password), ("Channel", .channel)]

/-- config.go:67-81; the tags are for TOML only. -/
def vesselKeys : List (String × Setting) :=
  [("Name", .vesselName), ("Manufacturer", .manufacturer), ("Model", .model), ("Year", .year), ("Mmsi", .mmsi),
   ("Callsign", .callsign), ("Registration", .registration), ("Uuid", .uuid), ("Uuid0", .uuid0), ("Uuid1", .uuid1),
   ("Uuid2", .uuid2), ("Uuid3", .uuid3), ("Uuid4", .uuid4)]

/-- The kinds of fields of `TomlConfig`. -/
inductive Place where
  | field (s : Setting)
  | struct (keys : List (String × Setting))
  | interfaces
  deriving DecidableEq, Repr

/-- config.go:30-37 -/
def topKeys : List (String × Place) :=
  [("LogLevel", .field .logLevel), ("MapFile", .field .mapFile), ("Server", .struct serverKeys), ("Mqtt", .struct mqttKeys),
   ("Interfaces", .interfaces), ("Vessel", .struct vesselKeys)]

/-- The value of decimal digits. -/
def natText (t : Str) : Nat := t.foldl (fun n b => 10 * n + (b.toNat - 48)) 0

/-- `strconv.ParseInt(text, 10, 64)` of a JSON number. -/
def intText (t : Str) : Option Int :=
  match t with
  | 45 :: r => if r.all Json.isDigit && decide (natText r ≤ 2 ^ 63) then some (-(natText r : Int)) else none
  | t => if t.all Json.isDigit && decide (natText t < 2 ^ 63) then some (natText t : Int) else none

/-- `strconv.ParseUint(text, 10, 64)` of a JSON number. -/
def uintText (t : Str) : Option Nat := if t.all Json.isDigit && decide (natText t < 2 ^ 64) then some (natText t) else none

/-- decode.go, `literalStore`: the value for a field of the type of the first argument; `none` is an error (`saveError`).  `null`
does nothing and is not an error: it is treated before. -/
def literal : Scalar → Json → Option Scalar
  | .str _, .str t => some (.str (utf8 t))
  | .int _, .num t => (intText t).map .int
  | .bool _, .bool b => some (.bool b)
  | _, _ => none

/-- decode.go, `value` of a setting: what is stored there after. -/
def step (s : Setting) (old : Option Scalar) (v : Json) : Option Scalar := ((literal (zeroOf s) v).map some).getD old

/-- ... and whether an error is noted. -/
def fieldError (s : Setting) : Json → Bool
  | .null => false
  | v => (literal (zeroOf s) v).isNone

/-- A field is stored. -/
def storeField (d : Doc) (s : Setting) (v : Json) : Doc := { d with val := fun s' => if s' = s then step s (d.val s) v else d.val s' }

/-- decode.go, `object` into a struct of settings: one member. -/
def storeMember (keys : List (String × Setting)) (d : Doc) (m : List Char × Json) : Doc :=
  match lookup keys m.1 with
  | some s => storeField d s m.2
  | none => d

def memberError (keys : List (String × Setting)) (m : List Char × Json) : Bool :=
  match lookup keys m.1 with
  | some s => fieldError s m.2
  | none => false

/-- The fields of `InterfaceConfig`, config.go:61-65. -/
inductive Part where
  | path | type | speed
  deriving DecidableEq, Repr

def partKeys : List (String × Part) := [("Path", .path), ("Type", .type), ("Speed", .speed)]

/-- decode.go, `object` into an `InterfaceConfig`: one member. -/
def storePart (i : Interface) (m : List Char × Json) : Interface :=
  match lookup partKeys m.1, m.2 with
  | some .path, .str t => { i with path := utf8 t }
  | some .type, .str t => { i with type := utf8 t }
  | some .speed, .num t => { i with speed := (uintText t).getD i.speed }
  | _, _ => i

def partError (m : List Char × Json) : Bool :=
  match lookup partKeys m.1, m.2 with
  | none, _ => false
  | some _, .null => false
  | some .path, .str _ => false
  | some .type, .str _ => false
  | some .speed, .num t => (uintText t).isNone
  | _, _ => true

/-- An element of the map: it starts from zero. -/
def interfaceOf : Json → Interface
  | .obj ms => ms.foldl storePart ⟨[], [], 0⟩
  | _ => ⟨[], [], 0⟩

def interfaceError : Json → Bool
  | .null => false
  | .obj ms => ms.any partError
  | _ => true

/-- A write to the map of interfaces. -/
def putInterface (l : List (Str × Interface)) (m : List Char × Json) : List (Str × Interface) :=
  l.filter (fun e => e.1 ≠ utf8 m.1) ++ [(utf8 m.1, interfaceOf m.2)]

/-- decode.go, `object` into `TomlConfig`: one member.  `null` makes a map nil and leaves a struct as it is. -/
def store (d : Doc) (m : List Char × Json) : Doc :=
  match lookup topKeys m.1, m.2 with
  | some (.field s), v => storeField d s v
  | some (.struct keys), .obj ms => ms.foldl (storeMember keys) d
  | some .interfaces, .null => { d with interfaces := [] }
  | some .interfaces, .obj ms => { d with interfaces := ms.foldl putInterface d.interfaces }
  | _, _ => d

def storeError (m : List Char × Json) : Bool :=
  match lookup topKeys m.1, m.2 with
  | none, _ => false
  | some (.field s), v => fieldError s v
  | some _, .null => false
  | some (.struct keys), .obj ms => ms.any (memberError keys)
  | some .interfaces, .obj ms => ms.any (fun m => interfaceError m.2)
  | _, _ => true

/-- ui_server.go:97-99: what the body of the request says, `none` if `Decode` returns an error.  `Decode` takes the first value of the
body and does not look at the rest; it goes on after a value of a wrong type and returns the error at the end.  `limit` is the depth
to which values may be nested, 10000 since Go 1.15. -/
def posted (limit : Option Nat) (body : List UInt8) : Option Doc :=
  match Playback.value (2 * body.length) body with
  | none => none
  | some (v, _) =>
    if limit.any (fun n => decide (n < Playback.depth v)) then none else
    match v with
    | .null => some ⟨fun _ => none, []⟩
    | .obj ms => if ms.any storeError then none else some (ms.foldl store ⟨fun _ => none, []⟩)
    | _ => none

/-! ## Model: what the settings page posts -/

/-- `JSON.stringify` of a string, as it is sent in UTF-8: one byte.  (Characters from 0x80 are not escaped; a JavaScript string with
half of a surrogate pair is not considered.) -/
def jsEsc (b : UInt8) : Str :=
  if b = 34 ∨ b = 92 then [92, b]
  else if b = 8 then [92, 98]
  else if b = 9 then [92, 116]
  else if b = 10 then [92, 110]
  else if b = 12 then [92, 102]
  else if b = 13 then [92, 114]
  else if b.toNat < 0x20 then [92, 117, 48, 48, Json.hexLow (b.toNat / 16), Json.hexLow (b.toNat % 16)]
  else [b]

def jsText (s : Str) : Str := 34 :: (s.flatMap jsEsc ++ [34])

/-- The values of the members of the object that the page posts. -/
inductive Js where
  | text (s : Str)
  /-- `Number.parseInt`, `none` is NaN or Infinity -/
  | number (n : Option Int)
  | flag (b : Bool)
  | undefined
  deriving DecidableEq, Repr

/-- `JSON.stringify` of a value; `print` is Number::toString of ECMAScript.  An undefined member is left out. -/
def Js.json (print : Int → Str) : Js → Option Str
  | .text s => some (jsText s)
  | .number (some n) => some (print n)
  | .number none => some (bs "null")
  | .flag b => some (if b then bs "true" else bs "false")
  | .undefined => none

/-- Separated by commas. -/
def commas : List Str → Str
  | [] => []
  | [x] => x
  | x :: y :: l => x ++ 44 :: commas (y :: l)

def jsMember (m : String × Str) : Str := jsText (bs m.1) ++ 58 :: m.2

/-- `JSON.stringify` of an object. -/
def jsObject (l : List (String × Str)) : Str := 123 :: (commas (l.map jsMember) ++ [125])

/-- The members that are not undefined. -/
def present (print : Int → Str) (l : List (String × Js)) : List (String × Str) :=
  l.filterMap fun m => (m.2.json print).map fun t => (m.1, t)

/-- assets/js/site.js:136-145 -/
def jsVessel (b : Browser) (f : Form) : List (String × Js) :=
  [("Name", .text (f.text .vesselName)), ("Manufacturer", .text (f.text .manufacturer)), ("Model", .text (f.text .model)),
   ("Year", .number (b.parseInt (f.text .year))), ("Registration", .text (f.text .registration)),
   ("Mmsi", .number (b.parseInt (f.text .mmsi))), ("Callsign", .text (f.text .callsign)), ("Uuid", .text (getUuid f))]

/-- assets/js/site.js:146-152 -/
def jsServer (b : Browser) (f : Form) : List (String × Js) :=
  [("ListenOn", .text (f.text .listenOn)), ("Port", .number (b.parseInt (f.text .serverPort))),
   ("UseTls", .flag (f.checked .serverUseTls)), ("EnableWebsockets", .flag (f.checked .enableWebsockets)),
   ("Certificate", .text (f.text .certificate))]

/-- assets/js/site.js:153-162; there is no input called mqttChannel. -/
def jsMqtt (b : Browser) (f : Form) : List (String × Js) :=
  [("Enable", .flag (f.checked .mqttEnable)), ("UseTls", .flag (f.checked .mqttUseTls)), ("Host", .text (f.text .mqttHost)),
   ("Port", .number (b.parseInt (f.text .mqttPort))), ("ClientId", .text (f.text .clientId)),
   ("Username", .text (f.text .username)), ("Password", .text (f.text .password)), ("Channel", .undefined)]

/-- assets/js/site.js:135 and 168: the body of the request. -/
def jsBody (print : Int → Str) (b : Browser) (f : Form) : Str :=
  jsObject [("Vessel", jsObject (present print (jsVessel b f))), ("Server", jsObject (present print (jsServer b f))),
    ("Mqtt", jsObject (present print (jsMqtt b f)))]

end Argo.Config
