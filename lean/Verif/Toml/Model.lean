import Mathlib.Data.List.Sort
import Verif.Config.Model

set_option autoImplicit false

/-!
# Model of the text that WriteConfig writes, config/config.go:126-140

`toml.NewEncoder(buf).Encode(config)` of github.com/burntsushi/toml v0.2.0 (go.mod:6), modelled for the types of
`TomlConfig`: the plain fields of a struct in the order of their declaration, then its tables; two spaces of
indentation per level; an empty line before a top-level table.
-/

namespace Argo.Toml

open Argo Config

/-- `quotedReplacer` of the encoder: a byte of a string value. -/
def escaped (b : UInt8) : Signalk.Str :=
  if b = 9 then [92, 116]
  else if b = 10 then [92, 110]
  else if b = 13 then [92, 114]
  else if b = 34 then [92, 34]
  else if b = 92 then [92, 92]
  else [b]

/-- `writeQuoted` of the encoder: a string value. -/
def quoted (s : Signalk.Str) : Signalk.Str := 34 :: s.flatMap escaped ++ [34]

/-- `isBareKeyChar` of the library, on bytes (the bytes of other characters are above 127). -/
def bareKeyChar (b : UInt8) : Bool :=
  (65 ≤ b.toNat && b.toNat ≤ 90) || (97 ≤ b.toNat && b.toNat ≤ 122) || (48 ≤ b.toNat && b.toNat ≤ 57) || b = 95 || b = 45

/-- `Key.maybeQuoted` of the library: in a quoted key only the quotation mark is escaped. -/
def keyText (k : Signalk.Str) : Signalk.Str :=
  if k.all bareKeyChar then k
  else 34 :: k.flatMap (fun b => if b = 34 then [92, 34] else [b]) ++ [34]

/-- `eElement` of the encoder: `strconv.FormatInt`, `strconv.FormatBool`, `writeQuoted`. -/
def scalarText : Scalar → Signalk.Str
  | .str s => quoted s
  | .int n => Signalk.bs (toString n)
  | .bool true => Signalk.bs "true"
  | .bool false => Signalk.bs "false"

/-- `keyEqElement` of the encoder: indentation, key, value, end of line. -/
def pairText (indent : Nat) (k : Signalk.Str) (v : Scalar) : Signalk.Str :=
  List.replicate (2 * indent) 32 ++ keyText k ++ Signalk.bs " = " ++ scalarText v ++ [10]

/-- The fields of a struct, without those tagged `toml:"-"`, with their names: config.go:30-32, 39-48, 50-59 and
67-81. -/
def topFields : List (Signalk.Str × Setting) :=
  [(Signalk.bs "LogLevel", .logLevel), (Signalk.bs "MapFile", .mapFile)]
/-- config.go:39-48. -/
def serverFields : List (Signalk.Str × Setting) :=
  [(Signalk.bs "EnableWebsockets", .enableWebsockets), (Signalk.bs "UseTls", .serverUseTls), (Signalk.bs "Port", .serverPort),
   (Signalk.bs "ListenOn", .listenOn), (Signalk.bs "AssetPath", .assetPath), (Signalk.bs "PublicKeyFile", .publicKeyFile),
   (Signalk.bs "PrivateKeyFile", .privateKeyFile)]
/-- config.go:50-59. -/
def mqttFields : List (Signalk.Str × Setting) :=
  [(Signalk.bs "Enable", .mqttEnable), (Signalk.bs "UseTls", .mqttUseTls), (Signalk.bs "Port", .mqttPort), (Signalk.bs "Host", .mqttHost),
   (Signalk.bs "ClientId", .clientId), (Signalk.bs "Username", .username), (Signalk.bs "Password", .password),
   (Signalk.bs "Channel", .channel)]
/-- config.go:67-75. -/
def vesselFields : List (Signalk.Str × Setting) :=
  [(Signalk.bs "Name", .vesselName), (Signalk.bs "Manufacturer", .manufacturer), (Signalk.bs "Model", .model), (Signalk.bs "Year", .year),
   (Signalk.bs "Mmsi", .mmsi), (Signalk.bs "Callsign", .callsign), (Signalk.bs "Registration", .registration), (Signalk.bs "Uuid", .uuid)]

/-- `eTable` of the encoder for a struct of plain fields at the top level. -/
def tableText (c : Conf) (name : Signalk.Str) (fields : List (Signalk.Str × Setting)) : Signalk.Str :=
  [10] ++ Signalk.bs "[" ++ keyText name ++ Signalk.bs "]" ++ [10] ++ fields.flatMap (fun f => pairText 1 f.1 (c.val f.2))

/-- `eTable` of the encoder for an `InterfaceConfig` (config.go:61-65) in the map of interfaces. -/
def interfaceText (e : Signalk.Str × Interface) : Signalk.Str :=
  List.replicate 2 32 ++ Signalk.bs "[" ++ keyText (Signalk.bs "Interfaces") ++ Signalk.bs "." ++ keyText e.1 ++ Signalk.bs "]" ++ [10] ++
    pairText 2 (Signalk.bs "Path") (.str e.2.path) ++ pairText 2 (Signalk.bs "Type") (.str e.2.type) ++
    pairText 2 (Signalk.bs "Speed") (.int e.2.speed)

/-- `sort.Strings` on byte strings: `a ≤ b`. -/
def leBytes : Signalk.Str → Signalk.Str → Bool
  | [], _ => true
  | _ :: _, [] => false
  | a :: s, b :: t => a < b || (a = b && leBytes s t)

/-- `eMap` of the encoder for the map of interfaces, in the order of the names.  A nil map is not written at all
(`isNil`); Go's maps are either, `nil` says which. -/
def interfacesText (nil : Bool) (l : List (Signalk.Str × Interface)) : Signalk.Str :=
  if nil ∧ l = [] then []
  else [10] ++ Signalk.bs "[" ++ keyText (Signalk.bs "Interfaces") ++ Signalk.bs "]" ++ [10] ++
    (l.insertionSort (fun a b => leBytes a.1 b.1 = true)).flatMap interfaceText

/-- config.go:126-128: the text, or `none` when `Encode` fails: a key that is empty (`panicIfInvalidKey`). -/
def configText (nil : Bool) (c : Conf) : Option Signalk.Str :=
  if c.interfaces.any (fun e => e.1 = []) then none
  else some (topFields.flatMap (fun f => pairText 0 f.1 (c.val f.2)) ++ tableText c (Signalk.bs "Server") serverFields ++
    tableText c (Signalk.bs "Mqtt") mqttFields ++ interfacesText nil c.interfaces ++ tableText c (Signalk.bs "Vessel") vesselFields)

/-- config.go:126-140 `WriteConfig`: the files after it.  The file is created only when there is a text. -/
def writeConfig (nil : Bool) (name : Signalk.Str) (c : Conf) (fs : FS) : FS :=
  match configText nil c with
  | none => fs
  | some t => fun n => if n = name then some t else fs n

/-- ui_server.go:107-109: the files after a save that is not disturbed. -/
def save (nil : Bool) (c : Conf) (fs : FS) : FS :=
  writeConfig nil confName c (fun n => if n = bakName then some ((fs confName).getD []) else fs n)

end Argo.Toml
