import Verif.Html.Lemmas

set_option autoImplicit false

/-!
# The parts of the page of the settings, read

The inputs the page is to have, and the tokenizer on the template between the checkboxes, computed by the kernel.
-/

namespace Argo.Html

open Argo.Signalk (Str bs)
open Argo.Config (Setting Scalar Conf)

/-! ## Specification -/

/-- A start tag `input` with these attributes. -/
def inp {α : Type} (as : List (String × List α)) (self : Bool := false) : Tok α :=
  .start (bs "input") (as.map (fun a => (bs a.1, a.2))) self

/-- The inputs of a page. -/
def isInput {α : Type} : Tok α → Bool
  | .start n _ _ => n == bs "input"
  | _ => false

/-- The `id` of a tag. -/
def idOf {α : Type} : Tok α → Option (List α)
  | .start _ as _ => attr as "id"
  | _ => none

section
variable {α : Type} (l : String → List α)

/-- A text input. -/
def textInput (id placeholder : String) (v : List α) : Tok α :=
  inp [("class", l "form-control"), ("id", l id), ("placeholder", l placeholder), ("value", v)]

/-- A part of the UUID. -/
def uuidInput (id : String) (v : List α) : Tok α :=
  inp [("class", l "form-control"), ("id", l id), ("value", v)]

/-- An input with a type. -/
def typedInput (id type placeholder : String) (v : List α) : Tok α :=
  inp [("class", l "form-control"), ("id", l id), ("type", l type), ("placeholder", l placeholder), ("value", v)]

/-- A checkbox. -/
def box (id : String) (on : Bool) : Tok α :=
  inp ([("class", l "form-check-input"), ("id", l id), ("type", l "checkbox")] ++ (if on then [("checked", [])] else []))

variable (v : Setting → List α)

/-- The inputs before the first checkbox. -/
def inputs0 : List (Tok α) :=
  [textInput l "vesselName" "Name" (v .vesselName),
   textInput l "vesselManufacturer" "Manufacturer" (v .manufacturer),
   textInput l "vesselModel" "Model" (v .model),
   inp [("class", l "form-control"), ("id", l "vesselYear"), ("placeholder", l "Year"), ("type", l "number"), ("value", v .year)],
   textInput l "mmsi" "MMSI" (v .mmsi),
   textInput l "callsign" "Callsign" (v .callsign),
   textInput l "registration" "Registration" (v .registration),
   uuidInput l "uuid_0" (v .uuid0),
   uuidInput l "uuid_1" (v .uuid1),
   uuidInput l "uuid_2" (v .uuid2),
   uuidInput l "uuid_3" (v .uuid3),
   uuidInput l "uuid_4" (v .uuid4),
   textInput l "listenOn" "IP Address" (v .listenOn),
   typedInput l "port" "number" "Port" (v .serverPort)]

/-- Those between the second and the third checkbox. -/
def inputs2 : List (Tok α) :=
  [inp [("class", l "form-control-file"), ("id", l "certificate"), ("type", l "file"), ("placeholder", l "Certificate")]]

/-- Those between the third and the fourth. -/
def inputs3 : List (Tok α) :=
  [textInput l "mqttHost" "Hostname" (v .mqttHost),
   typedInput l "mqttPort" "number" "Port" (v .mqttPort),
   textInput l "mqttClientId" "Client ID" (v .clientId),
   textInput l "mqttUsername" "Username" (v .username),
   typedInput l "mqttPassword" "password" "Password" (v .password)]

/-- The one after the last: the path of a new interface. -/
def inputs4 : List (Tok α) :=
  [inp [("class", l "form-control"), ("id", l "devicePath"), ("type", l "text")] true]

end

/-- What the page shows of a setting: its text (a NUL, which HTML cannot contain, as U+FFFD), its number in decimal. -/
def shown : Scalar → Str
  | .str s => readable s
  | .int n => bs (toString n)
  | .bool _ => []

/-- The inputs of the page, in order. -/
def inputs (c : Conf) : List (Tok UInt8) :=
  let v := fun s => shown (c.val s)
  let on := fun s => decide (c.val s = .bool true)
  inputs0 bs v ++ [box bs "enableWebsockets" (on .enableWebsockets), box bs "useTls" (on .serverUseTls)] ++ inputs2 bs ++
  [box bs "mqttEnable" (on .mqttEnable)] ++ inputs3 bs v ++ [box bs "mqttUseTls" (on .mqttUseTls)] ++ inputs4 bs

/-- A page without what depends on the settings: the values of its inputs and whether they are checked. -/
def erase : Tok UInt8 → Tok UInt8
  | .start n as s =>
    if n == bs "input" then
      .start n ((as.filter (fun a => a.1 != bs "checked")).map (fun a => if a.1 == bs "value" then (a.1, []) else a)) s
    else .start n as s
  | t => t

/-! ## The parts of the template -/

def leaves (ls : List (Leaf Setting)) : List (Sym Setting) := ls.flatMap Leaf.syms

/-- A text of the template as characters. -/
def byt (s : String) : List (Sym Setting) := (bs s).map .byte

/-- Values are only in the `value` of inputs. -/
def confined : Tok (Sym Setting) → Bool
  | .start n as _ => as.all fun a => (n == bs "input" && a.1 == bs "value") || a.2.all (fun s => match s with | .byte _ => true | _ => false)
  | .chr (.hole ..) => false
  | _ => true

structure Part where
  mode : Mode (Sym Setting)
  inputs : List (Tok (Sym Setting))
  ids : List (List (Sym Setting))
  confined : Bool
  deriving DecidableEq

def summary (r : Mode (Sym Setting) × List (Tok (Sym Setting))) : Part :=
  ⟨r.1, r.2.filter isInput, r.2.filterMap idOf, r.2.all confined⟩

def boxMode (id : String) : Mode (Sym Setting) :=
  .beforeName (bs "input") [(bs "class", byt "form-check-input"), (bs "id", byt id), (bs "type", byt "checkbox")]

def hole (s : Setting) : List (Sym Setting) := [.hole .attr s]

set_option maxRecDepth 100000 in
theorem part0 : (runT .data (leaves (.text layoutHead :: indexContent0))).map summary =
    some ⟨boxMode "enableWebsockets", inputs0 byt hole,
      ["navbarLinks", "stats", "settings", "basic-setup", "vesselName", "vesselManufacturer", "vesselModel", "vesselYear", "mmsi",
       "callsign", "registration", "genUUID", "uuid_0", "uuid_1", "uuid_2", "uuid_3", "uuid_4", "network", "listenOn",
       "port"].map byt, true⟩ := by
  decide +kernel

set_option maxRecDepth 100000 in
theorem part1 : (runT .data ((leaves indexContent1).drop 1)).map summary = some ⟨boxMode "useTls", [], [], true⟩ := by
  decide +kernel

set_option maxRecDepth 100000 in
theorem part2 : (runT .data ((leaves indexContent2).drop 1)).map summary =
    some ⟨boxMode "mqttEnable", inputs2 byt, [byt "certificate"], true⟩ := by
  decide +kernel

set_option maxRecDepth 100000 in
theorem part3 : (runT .data ((leaves indexContent3).drop 1)).map summary =
    some ⟨boxMode "mqttUseTls", inputs3 byt hole,
      ["mqttHost", "mqttPort", "mqttClientId", "mqttUsername", "mqttPassword"].map byt, true⟩ := by
  decide +kernel

set_option maxRecDepth 100000 in
theorem part4 : (runT .data ((leaves (indexContent4 ++ [.text layoutFoot])).drop 1)).map summary =
    some ⟨.data, inputs4 byt,
      ["providers", "providerList", "providerListBody", "interfaceModal", "interfaceModalLabel", "addInterface", "interfaceType",
       "devicePathGroup", "devicePath", "fileSelectGroup", "filename", "pgnModal", "pgnModalLabel"].map byt, true⟩ := by
  decide +kernel

/-- What stands in the tag of a checkbox: ` checked ` or nothing. -/
def mark (on : Bool) : List (Sym Setting) := if on then leaves [.text (lines [" checked "])] else []

theorem box_run : ∀ id ∈ ["enableWebsockets", "useTls", "mqttEnable", "mqttUseTls"], ∀ on : Bool,
    runT (boxMode id) (mark on ++ [.byte 62]) = some (.data, [box byt id on]) := by
  decide +kernel

theorem heads : ∀ s ∈ [leaves indexContent1, leaves indexContent2, leaves indexContent3,
    leaves (indexContent4 ++ [.text layoutFoot])], s.head? = some (.byte 62) := by
  decide +kernel

end Argo.Html
