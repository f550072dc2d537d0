import Verif.Html.Props
import Verif.Config.Page
import Verif.Iface.Start

set_option autoImplicit false

/-!
# C131: the tab of the interfaces

templates/index.gtpl:175-191 (the list), 219-268 (the dialog), assets/js/site.js:78-133 (what they do).  The buttons do what
the HTML standard says (4.10.22.2): one inside a form without a `type` submits it; Bootstrap (assets/js/bootstrap.min.js) keeps
only links from doing what they do.  Left out: the checks of number inputs before a form is submitted, and that a post takes
time.
-/

namespace Argo.Html

open Argo
open Argo.Signalk (Str bs)
open Argo.Config (Setting Scalar Conf Browser Form Interface)

/-! ## Specification: reading a page -/

/-- What is inside the first element that satisfies `p`, up to the next end tag `name`. -/
def inside (p : Tok UInt8 → Bool) (name : String) (ts : List (Tok UInt8)) : List (Tok UInt8) :=
  ((ts.dropWhile (fun t => !p t)).drop 1).takeWhile (fun t => t != .stop (bs name))

/-- The start tag has this id. -/
def hasId (i : String) (t : Tok UInt8) : Bool := idOf t == some (bs i)

/-- The characters. -/
def texts (ts : List (Tok UInt8)) : Str := ts.filterMap fun
  | .chr c => some c
  | _ => none

/-- Start tags of this name, each with its attributes and the text inside. -/
def elements (name : String) : List (Tok UInt8) → List (List (Str × Str) × Str)
  | [] => []
  | t :: ts => match t with
    | .start n as _ => if n = bs name
        then (as, texts (ts.takeWhile (fun t => t != .stop (bs name)))) :: elements name ts else elements name ts
    | _ => elements name ts

/-- The words of a text, separated by one space. -/
def squeeze (s : Str) : Str :=
  ((s.foldl (fun (a : Str × Bool) b => if isSpace b then (a.1, true) else (a.1 ++ (if a.2 && !a.1.isEmpty then [32] else []) ++ [b], false))
    ([], false))).1

/-- A button that submits the form it is in (HTML standard, 4.10.6). -/
def submits (as : List (Str × Str)) : Bool :=
  !(attr as "type" == some (bs "button") || attr as "type" == some (bs "reset"))

/-- The labels of the buttons of a form that submit it. -/
def submitters (form : String) (ts : List (Tok UInt8)) : List Str :=
  ((elements "button" (inside (hasId form) "form" ts)).filter (fun e => submits e.1)).map (fun e => squeeze e.2)

/-- The options of a select: what `.val()` gives (the attribute, or else the text) and what is shown. -/
def options (select : String) (ts : List (Tok UInt8)) : List (Str × Str) :=
  (elements "option" (inside (hasId select) "select" ts)).map (fun e => ((attr e.1 "value").getD (squeeze e.2), squeeze e.2))

/-! ## Model: the script -/

/-- The ids of templates/index.gtpl and layout.gtpl (`C131_page`). -/
def pageIds : List Str :=
  ["navbarLinks", "stats", "settings", "basic-setup", "vesselName", "vesselManufacturer", "vesselModel", "vesselYear", "mmsi",
   "callsign", "registration", "genUUID", "uuid_0", "uuid_1", "uuid_2", "uuid_3", "uuid_4", "network", "listenOn",
   "port", "enableWebsockets", "useTls", "certificate", "mqttEnable", "mqttHost", "mqttPort", "mqttClientId", "mqttUsername",
   "mqttPassword", "mqttUseTls", "providers", "providerList", "providerListBody", "interfaceModal", "interfaceModalLabel",
   "addInterface", "interfaceType", "devicePathGroup", "devicePath", "fileSelectGroup", "filename", "pgnModal",
   "pgnModalLabel"].map bs

/-- `$('#id').val()`: undefined if there is no such element. -/
def jval (vals : Str → Str) (id : String) : Option Str := if bs id ∈ pageIds then some (vals (bs id)) else none

/-- `document.createTextNode`: undefined becomes a word. -/
def textNode (v : Option Str) : Str := v.getD (bs "undefined")

/-- assets/js/site.js:105-115 -/
def intName (t : Option Str) : Str :=
  if t = some (bs "filestreamNmea0183") then bs "NMEA 0183 Recording"
  else if t = some (bs "filestreamNmea2000") then bs "NMEA 2000 Recording"
  else if t = some (bs "gpsd") then bs "GPSd"
  else if t = some (bs "actisense") then bs "Actisense NGT-1"
  else if t = some (bs "canusb") then bs "Lawicel CAN-USB"
  else []

/-- assets/js/site.js:97-133 `addInterface`: the texts of the cells of the row it appends; `baudRate` (line 101) is not used. -/
def addInterface (vals : Str → Str) : List Str :=
  [intName (jval vals "interfaceType"), textNode (jval vals "devicePath"), textNode (jval vals "fileName")]

/-- `.hide()` and `.show()`: nothing happens if there is no such element. -/
def setVisible (v : Str → Bool) (id : String) (on : Bool) : Str → Bool :=
  fun i => if i = bs id ∧ bs id ∈ pageIds then on else v i

/-- assets/js/site.js:78-95 `handleInterfaceTypeChange` -/
def handleTypeChange (v : Str → Bool) (t : Str) : Str → Bool :=
  let v := setVisible (setVisible (setVisible (setVisible v "fileSelectGroup" false) "devicePathGroup" false)
    "deviceBaudGroup" false) "gpsdPortGroup" false
  if t = bs "filestreamNmea0183" ∨ t = bs "filestreamNmea2000" then setVisible v "fileSelectGroup" true
  else if t = bs "gpsd" then setVisible v "gpsdPortGroup" true
  else if t = bs "actisense" ∨ t = bs "canusb" then setVisible (setVisible v "devicePathGroup" true) "deviceBaudGroup" true
  else v

/-- The page in the browser and the configuration of the server. -/
structure View where
  conf : Conf
  /-- what was last saved in the file -/
  saved : Option Config.Doc
  form : Form
  /-- the values of the elements of the dialog -/
  vals : Str → Str
  rows : List (List Str)
  /-- the elements of the dialog that are shown -/
  visible : Str → Bool

/-- templates/index.gtpl:236-258: the values when the page is loaded: the first option of each select, no path.  The style
`display: hidden` of the two groups is none of CSS, so that they are shown. -/
def loaded (b : Browser) (c : Conf) (saved : Option Config.Doc) : View where
  conf := c
  saved := saved
  form := Config.page b c
  vals i := if i = bs "interfaceType" then bs "Select Type" else if i = bs "filename" then bs "Select File" else []
  rows := []
  visible _ := true

/-- What is done on the page. -/
inductive Do where
  /-- the page is loaded (again) -/
  | load
  /-- inputs of the settings are changed -/
  | edit (f : Form)
  /-- the button "Add Interface" of the tab, which opens the dialog -/
  | openDialog
  /-- an option of the type is chosen -/
  | choose (t : Str)
  /-- a path is typed -/
  | path (p : Str)
  /-- an option of the file is chosen -/
  | file (f : Str)
  /-- the button "Add Interface" of the dialog -/
  | add
  /-- the return key in the path -/
  | enter
  /-- the button "Update Settings" -/
  | update

/-- assets/js/site.js:135-172 `submitForm`, main/ui_server.go:95-116. -/
def post (b : Browser) (v : View) : View :=
  let r := Config.admin v.conf (some (Config.submit b v.form))
  { v with conf := r.1, saved := match r.2 with
      | some d => some d
      | none => v.saved }

/-- templates/index.gtpl:13, 188, 198, 231, 236, 248, 253, 262; assets/js/site.js:28.  The form of the dialog has no action, no
script and one text input, so that the return key in it asks for the page again (HTML standard, 4.10.22.2 and 4.10.22.3). -/
def doStep (b : Browser) (v : View) : Do → View
  | .load => loaded b v.conf v.saved
  | .edit f => { v with form := f }
  | .openDialog => post b v
  | .choose t =>
    { v with vals := fun i => if i = bs "interfaceType" then t else v.vals i, visible := handleTypeChange v.visible t }
  | .path p => { v with vals := fun i => if i = bs "devicePath" then p else v.vals i }
  | .file f => { v with vals := fun i => if i = bs "filename" then f else v.vals i }
  | .add => { v with rows := v.rows ++ [addInterface v.vals] }
  | .enter => loaded b v.conf v.saved
  | .update => post b v

def doSteps (b : Browser) (v : View) (l : List Do) : View := l.foldl (doStep b) v

/-- main/argo.go:251, 283, 299, 313: what the type of an interface selects. -/
def deviceOf (t : Str) : Iface.Device :=
  if t = bs "canusb" then .canusb else if t = bs "actisense" then .actisense else if t = bs "file" then .file else .other

/-! ## Specification: what was done -/

/-- The type chosen last, or else what the page starts with. -/
def chosen (l : List Do) : Str :=
  (l.reverse.findSome? fun | .choose t => some t | _ => none).getD (bs "Select Type")

/-- The path typed last. -/
def typed (l : List Do) : Str :=
  (l.reverse.findSome? fun | .path p => some p | _ => none).getD []

/-- The page is neither loaded again nor left with the return key. -/
def Stays (l : List Do) : Prop := ∀ a ∈ l, a ≠ .load ∧ a ≠ .enter

def isAdd : Do → Bool
  | .add => true
  | _ => false

/-- It only touches the dialog and the list. -/
def inDialog : Do → Bool
  | .choose _ | .path _ | .file _ | .add => true
  | _ => false

/-! ## The page -/

/-- The types the page offers, with what it calls them. -/
def offered : List (Str × Str) :=
  [(bs "filestreamNmea0183", bs "NMEA 0183 Log File"), (bs "filestreamNmea2000", bs "NMEA 2000 Log File"),
   (bs "gpsd", bs "GPSd Server"), (bs "actisense", bs "Actisense NGT-1"), (bs "canusb", bs "Lawicel CAN-USB")]

/-- What is said of the page of any settings. -/
structure Shape where
  ids : List Str
  list : Str
  rows : List (List (Str × Str) × Str)
  buttons : List Str
  types : List (Str × Str)
  files : List (Str × Str)
  deriving DecidableEq

def shapeOf (ids : List Str) (ts : List (Tok UInt8)) : Shape where
  ids := ids
  list := (texts (inside (hasId "providerListBody") "tbody" ts)).filter (fun b => !isSpace b)
  rows := elements "tr" (inside (hasId "providerListBody") "tbody" ts)
  buttons := submitters "settings" ts
  types := options "interfaceType" ts
  files := options "filename" ts

set_option maxRecDepth 100000 in
theorem page_shape : (tokens (indexPage ⟨Config.zeroOf, []⟩)).map (fun ts => shapeOf (ts.filterMap idOf) (ts.map erase)) =
    some ⟨pageIds, [], [], [bs "Add Interface", bs "Update Settings"],
      [(bs "Select Type", bs "Select Type"), ([], [])] ++ offered,
      [(bs "Select File", bs "Select File"), ([], []), ([], [])]⟩ := by
  decide +kernel

theorem zero_typed : Config.WellTyped ⟨Config.zeroOf, []⟩ := by intro s; cases s <;> rfl

/-- **C131** (page): whatever the settings and interfaces are, a browser reads in the page (without the values of the inputs
of the settings): these ids; an empty list of interfaces; a form of settings that two buttons submit, the one that opens the
dialog and the one that updates the settings; the offered types and no files to choose from. -/
theorem C131_page (c : Conf) (hc : Config.WellTyped c) : ∃ ts, tokens (indexPage c) = some ts ∧
    ts.filterMap idOf = pageIds ∧
    (∀ b ∈ texts (inside (hasId "providerListBody") "tbody" (ts.map erase)), isSpace b = true) ∧
    elements "tr" (inside (hasId "providerListBody") "tbody" (ts.map erase)) = [] ∧
    submitters "settings" (ts.map erase) = [bs "Add Interface", bs "Update Settings"] ∧
    options "interfaceType" (ts.map erase) = [(bs "Select Type", bs "Select Type"), ([], [])] ++ offered ∧
    options "filename" (ts.map erase) = [(bs "Select File", bs "Select File"), ([], []), ([], [])] := by
  obtain ⟨shape, ids, _, h⟩ := C119_index
  obtain ⟨t0, h0, s0, i0, _⟩ := h _ zero_typed
  obtain ⟨ts, h1, s1, i1, _⟩ := h c hc
  have hp := page_shape
  rw [h0, Option.map_some] at hp
  have hp := Option.some.inj hp
  simp only [i0, s0, shapeOf, Shape.mk.injEq] at hp
  obtain ⟨a1, a2, a3, a4, a5, a6⟩ := hp
  refine ⟨ts, h1, i1.trans a1, ?_, ?_, ?_, ?_, ?_⟩
  · rw [s1]
    intro b hb
    have := List.filter_eq_nil_iff.mp a2 b hb
    simpa using this
  · rw [s1]; exact a3
  · rw [s1]; exact a4
  · rw [s1]; exact a5
  · rw [s1]; exact a6

/-- **C131** (list, false): the list of interfaces does not show the interfaces: the page is the same whatever they are, and
its list is empty. -/
theorem C131_list_false : (∀ (c : Conf) (l : List (Str × Interface)), indexPage { c with interfaces := l } = indexPage c) ∧
    ∃ c : Conf, c.interfaces ≠ [] ∧ Config.WellTyped c ∧ ∃ ts, tokens (indexPage c) = some ts ∧
      elements "tr" (inside (hasId "providerListBody") "tbody" (ts.map erase)) = [] := by
  refine ⟨fun _ _ => rfl, ⟨Config.zeroOf, [(bs "a", ⟨bs "/dev/ttyUSB0", bs "actisense", 115200⟩)]⟩, by simp, ?_, ?_⟩
  · intro s; cases s <;> rfl
  · obtain ⟨ts, h1, _, _, h2, _⟩ := C131_page ⟨Config.zeroOf, [(bs "a", ⟨bs "/dev/ttyUSB0", bs "actisense", 115200⟩)]⟩
      (by intro s; cases s <;> rfl)
    exact ⟨ts, h1, h2⟩

/-! ## The list -/

theorem doSteps_append (b : Browser) (v : View) (l m : List Do) : doSteps b v (l ++ m) = doSteps b (doSteps b v l) m :=
  List.foldl_append

theorem doSteps_snoc (b : Browser) (v : View) (l : List Do) (a : Do) : doSteps b v (l ++ [a]) = doStep b (doSteps b v l) a := by
  rw [doSteps_append]; rfl

theorem ids_ne : bs "devicePath" ≠ bs "interfaceType" ∧ bs "filename" ≠ bs "interfaceType" ∧ bs "filename" ≠ bs "devicePath" ∧
    bs "devicePath" ≠ bs "filename" ∧ bs "interfaceType" ≠ bs "devicePath" ∧ bs "interfaceType" ≠ bs "filename" := by
  decide +kernel

theorem ids_in : bs "devicePath" ∈ pageIds ∧ bs "interfaceType" ∈ pageIds ∧ bs "fileName" ∉ pageIds := by decide +kernel

theorem chosen_snoc (l : List Do) (a : Do) : chosen (l ++ [a]) = match a with | .choose t => t | _ => chosen l := by
  cases a <;> simp [chosen]

theorem typed_snoc (l : List Do) (a : Do) : typed (l ++ [a]) = match a with | .path t => t | _ => typed l := by
  cases a <;> simp [typed]

/-- The values of the dialog are what was chosen and typed last. -/
theorem vals_eq (b : Browser) (c : Conf) (s : Option Config.Doc) (l : List Do) (h : Stays l) :
    (doSteps b (loaded b c s) l).vals (bs "interfaceType") = chosen l ∧
    (doSteps b (loaded b c s) l).vals (bs "devicePath") = typed l := by
  obtain ⟨n1, n2, n3, n4, n5, n6⟩ := ids_ne
  induction l using List.reverseRecOn with
  | nil => simp [doSteps, loaded, chosen, typed, n1, n4]
  | append_singleton l a ih =>
    have ih := ih (fun x hx => h x (List.mem_append_left _ hx))
    have ha := h a (List.mem_append_right _ (List.mem_singleton_self a))
    rw [doSteps_snoc, chosen_snoc, typed_snoc]
    cases a with
    | load => exact absurd rfl ha.1
    | enter => exact absurd rfl ha.2
    | choose t => simp [doStep, n1, ih]
    | path t => simp [doStep, n5, ih]
    | file t => simp [doStep, n4, n6, ih]
    | edit f => exact ih
    | openDialog => exact ih
    | add => exact ih
    | update => exact ih

theorem add_row (vals : Str → Str) : addInterface vals =
    [intName (some (vals (bs "interfaceType"))), vals (bs "devicePath"), bs "undefined"] := by
  obtain ⟨h1, h2, h3⟩ := ids_in
  simp only [addInterface, jval, h1, h2, h3, if_true, if_false, textNode, Option.getD_some, Option.getD_none]

theorem rows_length (b : Browser) (c : Conf) (s : Option Config.Doc) (l : List Do) (h : Stays l) :
    (doSteps b (loaded b c s) l).rows.length = l.countP isAdd := by
  induction l using List.reverseRecOn with
  | nil => rfl
  | append_singleton l a ih =>
    have ih := ih (fun x hx => h x (List.mem_append_left _ hx))
    have ha := h a (List.mem_append_right _ (List.mem_singleton_self a))
    rw [doSteps_snoc, List.countP_append]
    cases a with
    | load => exact absurd rfl ha.1
    | enter => exact absurd rfl ha.2
    | add => simp [doStep, ih, isAdd]
    | _ => simpa [doStep, post, isAdd] using ih

theorem rows_prefix (b : Browser) (v : View) (l : List Do) (h : Stays l) : v.rows <+: (doSteps b v l).rows := by
  induction l generalizing v with
  | nil => exact List.prefix_rfl
  | cons a l ih =>
    have h1 : v.rows <+: (doStep b v a).rows := by
      have ha := h a List.mem_cons_self
      cases a with
      | load => exact absurd rfl ha.1
      | enter => exact absurd rfl ha.2
      | add => exact List.prefix_append _ _
      | _ => exact List.prefix_rfl
    exact h1.trans (ih _ (fun x hx => h x (List.mem_cons_of_mem _ hx)))

/-- **C131** (rows, partial): as long as the page is not loaded again, the list has one row for each interface added, in order;
its second cell is the path as typed, as text, whatever it is; the first is the name the page offers the type under, for the two
adapters.  Missing: `C131_row_false`, and that nothing of it is saved (`C131_saved_false`). -/
theorem C131_rows_partial (b : Browser) (c : Conf) (s : Option Config.Doc) (l : List Do) (h : Stays l) :
    (doSteps b (loaded b c s) l).rows.length = l.countP isAdd ∧
    ∀ (before after : List Do), l = before ++ .add :: after →
      ∃ name, (doSteps b (loaded b c s) l).rows[before.countP isAdd]? = some [name, typed before, bs "undefined"] ∧
        ∀ e ∈ offered, chosen before = e.1 → e.1 ∈ [bs "actisense", bs "canusb"] → name = e.2 := by
  refine ⟨rows_length b c s l h, ?_⟩
  rintro before after rfl
  have hb : Stays before := fun x hx => h x (List.mem_append_left _ hx)
  have ha : Stays after := fun x hx => h x (List.mem_append_right _ (List.mem_cons_of_mem _ hx))
  refine ⟨intName (some (chosen before)), ?_, ?_⟩
  · rw [show before ++ Do.add :: after = (before ++ [.add]) ++ after by simp, doSteps_append]
    obtain ⟨t, ht⟩ := rows_prefix b (doSteps b (loaded b c s) (before ++ [.add])) after ha
    rw [← ht, doSteps_snoc]
    have hl := rows_length b c s before hb
    obtain ⟨v1, v2⟩ := vals_eq b c s before hb
    simp only [doStep, add_row, v1, v2, List.append_assoc]
    rw [List.getElem?_append_right (by omega), hl]
    simp
  · intro e he hc hm
    rw [hc]
    exact (show ∀ e ∈ offered, e.1 ∈ [bs "actisense", bs "canusb"] → intName (some e.1) = e.2 by decide +kernel) e he hm

/-- **C131** (rows, false): the row of a recording or of GPSd is not called what was chosen, and the third cell, below "Speed",
says "undefined" for every interface: the page has no input for a speed, and the script asks for the file by a wrong id. -/
theorem C131_row_false (b : Browser) (c : Conf) (s : Option Config.Doc) (f : Str) :
    (∀ e ∈ offered, e.1 ∉ [bs "actisense", bs "canusb"] →
      ∃ name, (doSteps b (loaded b c s) [.openDialog, .choose e.1, .file f, .add]).rows = [[name, [], bs "undefined"]] ∧
        name ≠ e.2) ∧
    bs "fileName" ∉ pageIds ∧ bs "baudRate" ∉ pageIds := by
  refine ⟨fun e he hm => ⟨intName (some e.1), ?_, ?_⟩, by decide +kernel⟩
  · have hs : Stays [.openDialog, .choose e.1, .file f] := by
      intro a ha
      simp only [List.mem_cons, List.not_mem_nil, or_false] at ha
      rcases ha with rfl | rfl | rfl <;> exact ⟨nofun, nofun⟩
    obtain ⟨v1, v2⟩ := vals_eq b c s _ hs
    rw [show [Do.openDialog, .choose e.1, .file f, .add] = [.openDialog, .choose e.1, .file f] ++ [.add] from rfl, doSteps_snoc]
    have hl := rows_length b c s _ hs
    have hr : (doSteps b (loaded b c s) [.openDialog, .choose e.1, .file f]).rows = [] := List.eq_nil_of_length_eq_zero (hl.trans rfl)
    simp only [doStep, add_row, v1, v2, hr]
    rfl
  · exact (show ∀ e ∈ offered, e.1 ∉ [bs "actisense", bs "canusb"] → intName (some e.1) ≠ e.2 by decide +kernel) e he hm

/-! ## Saving -/

theorem post_interfaces (b : Browser) (c : Conf) (f : Form) :
    (Config.admin c (some (Config.submit b f))).1.interfaces = c.interfaces ∧
    ∀ d, (Config.admin c (some (Config.submit b f))).2 = some d → d.interfaces = c.interfaces := by
  have hi : ∀ x, Config.decode (fun _ => true) (Config.submit b f) Config.settings = some x → x.interfaces = [] := by
    intro x hx
    unfold Config.decode at hx
    split at hx
    · cases hx; rfl
    · cases hx
  cases hd : Config.decode (fun _ => true) (Config.submit b f) Config.settings with
  | none =>
    have e : Config.admin c (some (Config.submit b f)) = (c, none) := by simp only [Config.admin, hd]
    rw [e]
    exact ⟨rfl, fun _ h => nomatch h⟩
  | some x =>
    have e : Config.admin c (some (Config.submit b f)) = (Config.merge c x, some (Config.written (Config.merge c x))) := by
      simp only [Config.admin, hd]
    have hm : (Config.merge c x).interfaces = c.interfaces := by simp [Config.merge, hi x hd]
    rw [e]
    refine ⟨hm, ?_⟩
    intro d he
    rw [← Option.some.inj he]
    exact hm

/-- **C131** (saving, partial): whatever is done on the page, the interfaces of the running configuration stay as they are, and
those of every file saved are the same; the dialog and the list have no effect on the settings: they are as if nothing had been
done there.  Missing: `C131_saved_false`. -/
theorem C131_saved_partial (b : Browser) (v : View) (l : List Do) :
    (doSteps b v l).conf.interfaces = v.conf.interfaces ∧
    ((∀ d, v.saved = some d → d.interfaces = v.conf.interfaces) →
      ∀ d, (doSteps b v l).saved = some d → d.interfaces = v.conf.interfaces) ∧
    (doSteps b v l).conf = (doSteps b v (l.filter (fun a => !inDialog a))).conf ∧
    (doSteps b v l).saved = (doSteps b v (l.filter (fun a => !inDialog a))).saved ∧
    (doSteps b v l).form = (doSteps b v (l.filter (fun a => !inDialog a))).form := by
  have step : ∀ v a, (doStep b v a).conf.interfaces = v.conf.interfaces := by
    intro v a
    cases a with
    | openDialog => exact (post_interfaces b v.conf v.form).1
    | update => exact (post_interfaces b v.conf v.form).1
    | _ => rfl
  have psaved : ∀ v : View, (∀ d, v.saved = some d → d.interfaces = v.conf.interfaces) →
      ∀ d, (post b v).saved = some d → d.interfaces = v.conf.interfaces := by
    intro v hs d hd
    simp only [post] at hd
    split at hd
    · rename_i d' h'
      cases hd
      exact (post_interfaces b v.conf v.form).2 _ h'
    · exact hs d hd
  have steps : ∀ v a, (∀ d, v.saved = some d → d.interfaces = v.conf.interfaces) →
      ∀ d, (doStep b v a).saved = some d → d.interfaces = v.conf.interfaces := by
    intro v a hs
    cases a with
    | openDialog => exact psaved v hs
    | update => exact psaved v hs
    | _ => exact hs
  have same : ∀ (l : List Do) (v w : View), v.conf = w.conf → v.saved = w.saved → v.form = w.form →
      (doSteps b v l).conf = (doSteps b w (l.filter (fun a => !inDialog a))).conf ∧
      (doSteps b v l).saved = (doSteps b w (l.filter (fun a => !inDialog a))).saved ∧
      (doSteps b v l).form = (doSteps b w (l.filter (fun a => !inDialog a))).form := by
    intro l
    induction l with
    | nil => exact fun v w h1 h2 h3 => ⟨h1, h2, h3⟩
    | cons a l ih =>
      intro v w h1 h2 h3
      cases a with
      | choose t => exact ih _ _ h1 h2 h3
      | path t => exact ih _ _ h1 h2 h3
      | file t => exact ih _ _ h1 h2 h3
      | add => exact ih _ _ h1 h2 h3
      | edit f => exact ih _ _ h1 h2 rfl
      | load => exact ih _ _ h1 h2 (by simp only [doStep, loaded, h1])
      | enter => exact ih _ _ h1 h2 (by simp only [doStep, loaded, h1])
      | openDialog => exact ih _ _ (by simp only [doStep, post, h1, h3]) (by simp only [doStep, post, h1, h2, h3]) h3
      | update => exact ih _ _ (by simp only [doStep, post, h1, h3]) (by simp only [doStep, post, h1, h2, h3]) h3
  refine ⟨?_, ?_, same l v v rfl rfl rfl⟩
  · induction l generalizing v with
    | nil => rfl
    | cons a l ih => exact (ih (doStep b v a)).trans (step v a)
  · intro hs
    induction l generalizing v with
    | nil => exact hs
    | cons a l ih =>
      have := ih (doStep b v a) (by rw [step]; exact steps v a hs)
      rw [step] at this
      exact this

/-- **C131** (saving, false): an interface that was added and is in the list is not in the settings after "Update Settings", not
in the file, and not in the list when the page is loaded again. -/
theorem C131_saved_false (b : Browser) (c : Conf) :
    let l := [Do.openDialog, .choose (bs "actisense"), .path (bs "/dev/ttyUSB0"), .add, .update]
    let v := doSteps b (loaded b c none) l
    v.rows = [[bs "Actisense NGT-1", bs "/dev/ttyUSB0", bs "undefined"]] ∧
    v.conf.interfaces = c.interfaces ∧ (∃ d, v.saved = some d ∧ d.interfaces = c.interfaces) ∧ (doStep b v .load).rows = [] := by
  intro l v
  have hs : Stays l := by
    intro a ha
    simp only [l, List.mem_cons, List.not_mem_nil, or_false] at ha
    rcases ha with rfl | rfl | rfl | rfl | rfl <;> exact ⟨nofun, nofun⟩
  obtain ⟨r1, r2⟩ := C131_rows_partial b c none l hs
  obtain ⟨name, h1, h2⟩ := r2 [.openDialog, .choose (bs "actisense"), .path (bs "/dev/ttyUSB0")] [.update] rfl
  have hn := h2 (bs "actisense", bs "Actisense NGT-1") (by decide +kernel) rfl (by simp)
  obtain ⟨s1, s2, _⟩ := C131_saved_partial b (loaded b c none) l
  refine ⟨?_, s1, ?_, rfl⟩
  · have hl : v.rows.length = 1 := r1
    match hv : v.rows, hl with
    | [x], _ =>
      have h1 : v.rows[0]? = some [name, bs "/dev/ttyUSB0", bs "undefined"] := h1
      rw [hv] at h1
      simp only [List.getElem?_cons_zero, Option.some.injEq] at h1
      rw [h1, hn]
  · have hd : ∃ d, v.saved = some d := by
      let w := doSteps b (loaded b c none) [Do.openDialog, .choose (bs "actisense"), .path (bs "/dev/ttyUSB0"), .add]
      have e : v = post b w := rfl
      obtain ⟨saved, h⟩ : ∃ saved, (Config.admin w.conf (some (Config.submit b w.form))).2 = some saved := by
        obtain ⟨_, _, saved, h3, _⟩ := (Config.C75_rule w.conf (some (Config.submit b w.form))).2 _ rfl (Config.submit_typed b _)
        exact ⟨saved, h3⟩
      exact ⟨saved, by rw [e]; simp only [post, h]⟩
    obtain ⟨d, hd⟩ := hd
    exact ⟨d, hd, s2 (fun _ h => nomatch h) d hd⟩

/-- **C131** (opening the dialog, false): the button that opens the dialog submits the settings.  If no UUID is configured, opening
the dialog stores four dashes as the UUID, which nothing posted later changes (`C114_uuid_false`). -/
theorem C131_open_false {b : Browser} (hb : Config.Faithful b) (d : Option Config.Doc)
    (hu : (Config.readConfig d).1.val .uuid = .str []) :
    (doSteps b (loaded b (Config.readConfig d).1 d) [.openDialog]).conf.val .uuid = .str (bs "----") ∧
    ∃ saved, (doSteps b (loaded b (Config.readConfig d).1 d) [.openDialog]).saved = some saved ∧
      saved.val .uuid = some (.str (bs "----")) := by
  obtain ⟨h1, _, h3⟩ := Config.C114_uuid_false hb d hu []
  refine ⟨h1, ?_⟩
  obtain ⟨_, _, saved, hs, _⟩ := (Config.C75_rule (Config.readConfig d).1
    (some (Config.submit b (Config.page b (Config.readConfig d).1)))).2 _ rfl (Config.submit_typed b _)
  refine ⟨saved, ?_, h3 saved hs⟩
  show (match (Config.admin (Config.readConfig d).1 (some (Config.submit b (Config.page b (Config.readConfig d).1)))).2 with
    | some d => some d
    | none => d) = some saved
  rw [hs]

/-! ## Types -/

/-- **C131** (types, partial): the two adapters the page offers are types of interfaces the program knows: with an opened serial
port it does not refuse them.  Missing: `C131_types_false`. -/
theorem C131_types_partial (tbl : List Nmea2k.Pgn) (fp : List Nat) (group : Byte) (p : Port) :
    ∀ e ∈ offered, e.1 ∈ [bs "actisense", bs "canusb"] →
      Iface.start tbl fp group .charDevice (some p) (deviceOf e.1) ≠ .ok .exit := by
  intro e he hm h
  rw [Iface.C88_exit] at h
  rcases h with h | ⟨_, h⟩ | h
  · cases h
  · cases h
  · exact absurd h ((show ∀ e ∈ offered, e.1 ∈ [bs "actisense", bs "canusb"] → deviceOf e.1 ≠ .other by decide +kernel) e he hm)

/-- **C131** (types, false): the program ends when it is given an interface of one of the other three types the page offers; and the
type it plays files back with is not offered. -/
theorem C131_types_false (tbl : List Nmea2k.Pgn) (fp : List Nat) (group : Byte) :
    (∀ e ∈ offered, e.1 ∉ [bs "actisense", bs "canusb"] → ∀ kind port,
      Iface.start tbl fp group kind port (deviceOf e.1) = .ok .exit) ∧
    deviceOf (bs "file") = .file ∧ bs "file" ∉ offered.map Prod.fst := by
  refine ⟨fun e he hm kind port => ?_, by decide +kernel, by decide +kernel⟩
  rw [Iface.C88_exit]
  exact .inr (.inr ((show ∀ e ∈ offered, e.1 ∉ [bs "actisense", bs "canusb"] → deviceOf e.1 = .other by decide +kernel) e he hm))

/-! ## Inputs of the dialog -/

/-- **C131** (inputs): once a type was chosen, the dialog shows the input of the path exactly for the two adapters and the
selection of a file exactly for the two recordings, whatever was chosen before. -/
theorem C131_inputs (b : Browser) (c : Conf) (s : Option Config.Doc) (l : List Do) (h : Stays l) (hc : ∃ t, Do.choose t ∈ l) :
    ((doSteps b (loaded b c s) l).visible (bs "devicePathGroup") = true ↔ chosen l ∈ [bs "actisense", bs "canusb"]) ∧
    ((doSteps b (loaded b c s) l).visible (bs "fileSelectGroup") = true ↔
      chosen l ∈ [bs "filestreamNmea0183", bs "filestreamNmea2000"]) := by
  have n1 : ∀ i ∈ ["fileSelectGroup", "deviceBaudGroup", "gpsdPortGroup"], bs "devicePathGroup" ≠ bs i := by decide +kernel
  have n2 : ∀ i ∈ ["devicePathGroup", "deviceBaudGroup", "gpsdPortGroup"], bs "fileSelectGroup" ≠ bs i := by decide +kernel
  have m : bs "devicePathGroup" ∈ pageIds ∧ bs "fileSelectGroup" ∈ pageIds := by decide +kernel
  have k : ∀ x ∈ [bs "actisense", bs "canusb"], x ≠ bs "filestreamNmea0183" ∧ x ≠ bs "filestreamNmea2000" ∧ x ≠ bs "gpsd" := by
    decide +kernel
  have handle : ∀ (v : Str → Bool) (t : Str),
      (handleTypeChange v t (bs "devicePathGroup") = true ↔ t ∈ [bs "actisense", bs "canusb"]) ∧
      (handleTypeChange v t (bs "fileSelectGroup") = true ↔ t ∈ [bs "filestreamNmea0183", bs "filestreamNmea2000"]) := by
    intro v t
    have a1 := n1 "fileSelectGroup" (by simp)
    have a2 := n1 "deviceBaudGroup" (by simp)
    have a3 := n1 "gpsdPortGroup" (by simp)
    have b1 := n2 "devicePathGroup" (by simp)
    have b2 := n2 "deviceBaudGroup" (by simp)
    have b3 := n2 "gpsdPortGroup" (by simp)
    have key : t ∈ [bs "actisense", bs "canusb"] →
        ¬ (t = bs "filestreamNmea0183" ∨ t = bs "filestreamNmea2000") ∧ ¬ t = bs "gpsd" := fun ht => by
      obtain ⟨k1, k2, k3⟩ := k t ht
      exact ⟨fun h => h.elim k1 k2, k3⟩
    have eqv : ∀ x y : Str, t ∈ [x, y] ↔ (t = x ∨ t = y) := by intro x y; simp
    rw [eqv] at key
    rw [eqv, eqv]
    unfold handleTypeChange
    by_cases h1 : t = bs "filestreamNmea0183" ∨ t = bs "filestreamNmea2000"
    · have h3 : ¬ (t = bs "actisense" ∨ t = bs "canusb") := fun h => (key h).1 h1
      simp only [if_pos h1]
      constructor
      · simp only [h3, iff_false]
        simp [setVisible, a1, a2, a3, m.1]
      · simp only [h1, iff_true]
        simp [setVisible, m.2]
    · simp only [if_neg h1]
      by_cases h2 : t = bs "gpsd"
      · have h3 : ¬ (t = bs "actisense" ∨ t = bs "canusb") := fun h => (key h).2 h2
        simp only [if_pos h2]
        constructor
        · simp only [h3, iff_false]
          simp [setVisible, a2, a3, m.1]
        · simp only [h1, iff_false]
          simp [setVisible, b1, b2, b3, m.2]
      · simp only [if_neg h2]
        by_cases h3 : t = bs "actisense" ∨ t = bs "canusb"
        · simp only [if_pos h3]
          constructor
          · simp only [h3, iff_true]
            simp [setVisible, a2, m.1]
          · simp only [h1, iff_false]
            simp [setVisible, b1, b2, b3, m.2]
        · simp only [if_neg h3]
          constructor
          · simp only [h3, iff_false]
            simp [setVisible, a2, a3, m.1]
          · simp only [h1, iff_false]
            simp [setVisible, b1, b2, b3, m.2]
  induction l using List.reverseRecOn with
  | nil => obtain ⟨t, ht⟩ := hc; cases ht
  | append_singleton l a ih =>
    have ih := ih (fun x hx => h x (List.mem_append_left _ hx))
    have ha := h a (List.mem_append_right _ (List.mem_singleton_self a))
    rw [doSteps_snoc, chosen_snoc]
    have prev : (∀ t, a ≠ .choose t) → ∃ t, Do.choose t ∈ l := by
      obtain ⟨t, ht⟩ := hc
      intro hn
      rcases List.mem_append.mp ht with ht | ht
      · exact ⟨t, ht⟩
      · exact absurd (List.mem_singleton.mp ht).symm (hn t)
    cases a with
    | load => exact absurd rfl ha.1
    | enter => exact absurd rfl ha.2
    | choose t => exact handle _ t
    | path t => exact ih (prev nofun)
    | file t => exact ih (prev nofun)
    | edit f => exact ih (prev nofun)
    | openDialog => exact ih (prev nofun)
    | add => exact ih (prev nofun)
    | update => exact ih (prev nofun)

/-! ## Examples -/

/-- A browser that takes texts as they are and reads nothing but 0 as a number. -/
def exBrowser : Browser := ⟨id, fun s => if s = bs "0" then some 0 else none⟩

example : Config.Faithful exBrowser := ⟨rfl, by decide +kernel⟩

/-- Two interfaces are added, with a change of mind. -/
def exDone : List Do :=
  [.openDialog, .choose (bs "gpsd"), .choose (bs "canusb"), .path (bs "<b>/dev/ttyUSB1"), .add, .openDialog,
   .choose (bs "actisense"), .path (bs "/dev/ttyUSB0"), .add, .update]

example : Stays exDone := by
  intro a ha
  simp only [exDone, List.mem_cons, List.not_mem_nil, or_false] at ha
  rcases ha with rfl | rfl | rfl | rfl | rfl | rfl | rfl | rfl | rfl | rfl <;> exact ⟨nofun, nofun⟩

example : (doSteps exBrowser (loaded exBrowser ⟨Config.zeroOf, []⟩ none) exDone).rows =
    [[bs "Lawicel CAN-USB", bs "<b>/dev/ttyUSB1", bs "undefined"], [bs "Actisense NGT-1", bs "/dev/ttyUSB0", bs "undefined"]] := by
  decide +kernel

example : chosen exDone = bs "actisense" ∧ typed exDone = bs "/dev/ttyUSB0" := by decide +kernel

/-- The shipped sample configuration has no UUID, as has an empty file. -/
example : (Config.readConfig (some ⟨fun _ => none, []⟩)).1.val .uuid = .str [] := by decide +kernel

end Argo.Html
