import Verif.Json.Pages
import Mathlib.Tactic.ByContra

set_option autoImplicit false

/-!
# The XML of the message API (C109)

What a client that reads XML finds in the details of a message asked for in XML (main/api_server.go:114-145).
-/

namespace Argo.Xml

open Argo
open Argo.Nmea2k (Pgn Field Units Res)
open Argo.Nmea2k
open Argo.Signalk (Str bs)

/-! ## Model: `xml.Marshal` (encoding/xml, from its documentation and source) -/

/-- encoding/xml `isInCharacterRange`. -/
def inRange (c : Char) : Bool :=
  decide (c.toNat = 9 ∨ c.toNat = 10 ∨ c.toNat = 13 ∨ (0x20 ≤ c.toNat ∧ c.toNat ≤ 0xD7FF) ∨
    (0xE000 ≤ c.toNat ∧ c.toNat ≤ 0xFFFD) ∨ (0x10000 ≤ c.toNat ∧ c.toNat ≤ 0x10FFFF))

/-- encoding/xml `EscapeString`, one character of a valid string. -/
def escChar (c : Char) : List Char :=
  if c = '"' then "&#34;".toList
  else if c = '\'' then "&#39;".toList
  else if c = '&' then "&amp;".toList
  else if c = '<' then "&lt;".toList
  else if c = '>' then "&gt;".toList
  else if c.toNat = 9 then "&#x9;".toList
  else if c.toNat = 10 then "&#xA;".toList
  else if c.toNat = 13 then "&#xD;".toList
  else if inRange c then [c]
  else [Char.ofNat 0xFFFD]

/-- A value as `xml.Marshal` sees it: an element without attributes holding text or elements. -/
inductive Out where
  | leaf (name : String) (text : List Char)
  | node (name : String) (l : List Out)

mutual

/-- encoding/xml `printer.marshalValue`: start tag, contents, end tag. -/
def print : Out → List Char
  | .leaf n t => '<' :: n.toList ++ '>' :: t.flatMap escChar ++ '<' :: '/' :: n.toList ++ ['>']
  | .node n l => '<' :: n.toList ++ '>' :: printAll l ++ '<' :: '/' :: n.toList ++ ['>']

def printAll : List Out → List Char
  | [] => []
  | o :: l => print o ++ printAll l

end

/-- The number of a `Field.Resolution` (pgn_array.go:36-56) as `strconv.FormatFloat(f, 'g', -1, 64)` prints it; `scale`
gives the text of the other factors. -/
def resText (scale : String → List Char) : Res → List Char
  | .ascii => "-1".toList
  | .latitude => "-2".toList
  | .longitude => "-3".toList
  | .date => "-4".toList
  | .time => "-5".toList
  | .temperature => "-6".toList
  | .sixBitAscii => "-7".toList
  | .integer => "-8".toList
  | .lookup => "-9".toList
  | .lookup2 => "-10".toList
  | .binary => "-11".toList
  | .manufacturer => "-12".toList
  | .string => "-13".toList
  | .float => "-14".toList
  | .pressure => "-15".toList
  | .stringLZ => "-16".toList
  | .notUsed => "0".toList
  | .one => "1".toList
  | .scale s => scale s

/-- `strconv.FormatBool`. -/
def boolText (b : Bool) : List Char := if b then "true".toList else "false".toList

/-- `Field.Units` (pgn_array.go:63): nothing for nil; `PgnLookup.MarshalXML` (pgn_array.go:95-97) writes nothing; a
`PgnSubLookup` is a map, an unsupported type (`none`). -/
def unitsOut : Units → Option (List Out)
  | .nil => some []
  | .int n => some [.leaf "Units" (toString n).toList]
  | .empty => some [.leaf "Units" []]
  | .text s => some [.leaf "Units" s.toList]
  | .must n => some [.leaf "Units" ("=" ++ toString n).toList]
  | .lookup _ => some []
  | .subLookup _ => none

/-- pgn_array.go:58-67 `Field`, an element of `FieldList`. -/
def fieldOut (scale : String → List Char) (f : Field) : Option Out :=
  (unitsOut f.units).map fun u => .node "FieldList" ([
    .leaf "Name" f.name.toList, .leaf "Size" (toString f.size).toList, .leaf "Resolution" (resText scale f.res),
    .leaf "Signed" (boolText f.signed)] ++ u ++ [.leaf "Description" f.description.toList,
    .leaf "SignalkPath" f.signalkPath.toList, .leaf "Offset" (toString f.offset).toList])

/-- The elements of `FieldList`; an error in one is an error. -/
def fieldsOut (scale : String → List Char) : List Field → Option (List Out)
  | [] => some []
  | f :: l => (fieldOut scale f).bind fun o => (fieldsOut scale l).map (o :: ·)

/-- pgn_array.go:69-77 `Pgn`. -/
def pgnOut (scale : String → List Char) (d : Pgn) : Option Out :=
  (fieldsOut scale d.fieldList).map fun fs => .node "Pgn" ([
    .leaf "Description" d.description.toList, .leaf "Category" d.category.toList, .leaf "Pgn" (toString d.pgn).toList,
    .leaf "IsKnown" (boolText d.isKnown), .leaf "Size" (toString d.size).toList,
    .leaf "RepeatingFields" (toString d.repeatingFields).toList] ++ fs)

/-- api_server.go:114-145 `MessageDetailsHandler`: the body of a reply in XML, `none` for one in JSON.  After an
error nothing is written. -/
def detailsReply (scale : String → List Char) (tbl : List Pgn) (key : Str) : GoM (Option (List Byte)) := do
  let (d, xml) ← Main.messageDetails tbl key
  return if xml then some (((pgnOut scale d).map print).getD [] |>.flatMap String.utf8EncodeChar) else none

/-! ## Specification: reading XML 1.0 (elements without attributes) -/

/-- An element, or a character of text. -/
inductive Tree where
  | elem (name : List Char) (content : List Tree)
  | char (c : Char)

/-- What the characters are, one after the other. -/
inductive Event where
  | start (name : List Char)
  | stop (name : List Char)
  | char (c : Char)
  deriving DecidableEq

/-- Characters of names (section 2.3), those of ASCII. -/
def isNameChar (c : Char) : Bool := c.isAlphanum || c == ':' || c == '_' || c == '-' || c == '.'
def isNameStart (c : Char) : Bool := c.isAlpha || c == ':' || c == '_'

/-- A name and the rest. -/
def name (l : List Char) : Option (List Char × List Char) :=
  match l with
  | [] => none
  | c :: r => if isNameStart c then some (c :: r.takeWhile isNameChar, r.dropWhile isNameChar) else none

/-- The digit of a character reference. -/
def digit (base : Nat) (c : Char) : Option Nat :=
  let v := if '0' ≤ c ∧ c ≤ '9' then some (c.toNat - 48)
    else if 'a' ≤ c ∧ c ≤ 'f' then some (c.toNat - 87)
    else if 'A' ≤ c ∧ c ≤ 'F' then some (c.toNat - 55) else none
  v.filter (· < base)

/-- A number up to the end. -/
def numeral (base : Nat) : Nat → List Char → Option Nat
  | n, [] => some n
  | n, c :: r => (digit base c).bind fun d => numeral base (n * base + d) r

/-- The characters allowed (section 2.2). -/
def legal (c : Char) : Bool :=
  decide (c.toNat = 0x9 ∨ c.toNat = 0xA ∨ c.toNat = 0xD ∨ (0x20 ≤ c.toNat ∧ c.toNat ≤ 0xD7FF) ∨
    (0xE000 ≤ c.toNat ∧ c.toNat ≤ 0xFFFD) ∨ (0x10000 ≤ c.toNat ∧ c.toNat ≤ 0x10FFFF))

/-- A reference (sections 4.1 and 4.6), what is between `&` and `;`. -/
def reference (l : List Char) : Option Char :=
  if l = "lt".toList then some '<'
  else if l = "gt".toList then some '>'
  else if l = "amp".toList then some '&'
  else if l = "quot".toList then some '"'
  else if l = "apos".toList then some '\''
  else
    match l with
    | '#' :: 'x' :: d :: r => (numeral 16 0 (d :: r)).bind fun n => if legal (Char.ofNat n) ∧ n ≠ 0 then some (Char.ofNat n) else none
    | '#' :: d :: r => (numeral 10 0 (d :: r)).bind fun n => if legal (Char.ofNat n) ∧ n ≠ 0 then some (Char.ofNat n) else none
    | _ => none

/-- A tag: its name up to `>`. -/
def tag (mk : List Char → Event) (l : List Char) : Option (Event × List Char) :=
  (name l).bind fun e => if e.2.head? = some '>' then some (mk e.1, e.2.tail) else none

/-- The next event and the rest.  A line end in the text is a line feed (section 2.11); `>` must be a reference (XML
asks for this only in `]]>`). -/
def event : List Char → Option (Event × List Char)
  | [] => none
  | c :: r =>
    if c = '<' then
      if r.head? = some '/' then tag .stop r.tail else tag .start r
    else if c = '&' then
      if ';' ∈ r then (reference (r.takeWhile (· ≠ ';'))).map fun x => (.char x, (r.dropWhile (· ≠ ';')).tail) else none
    else if c = '>' then none
    else if c.toNat = 13 then some (.char '\n', r)
    else if legal c then some (.char c, r) else none

/-- All events. -/
def events : Nat → List Char → Option (List Event)
  | _, [] => some []
  | 0, _ :: _ => none
  | n + 1, c :: r => (event (c :: r)).bind fun e => (events n e.2).map (e.1 :: ·)

/-- The one element that the events make up.  `open` holds the elements that are not closed, each with what came before
in it, latest first. -/
def build : (List (List Char × List Tree)) → List Event → Option Tree
  | _, [] => none
  | [], .start n :: es => build [(n, [])] es
  | [], _ :: _ => none
  | (n, l) :: up, .char c :: es => build ((n, .char c :: l) :: up) es
  | up, .start n :: es => build ((n, []) :: up) es
  | [(n, l)], .stop m :: es => if m = n ∧ es = [] then some (.elem n l.reverse) else none
  | (n, l) :: (n', l') :: up, .stop m :: es =>
    if m = n then build ((n', .elem n l.reverse :: l') :: up) es else none

/-- The element that the bytes, in UTF-8, are. -/
def readXml (b : List Byte) : Option Tree := (events b.length (Json.chars b)).bind (build [])

/-- An element that holds text. -/
def leaf (n s : String) : Tree := .elem n.toList (s.toList.map .char)

/-- A truth value. -/
def truth (b : Bool) : String := if b then "true" else "false"

/-- The units of a field: nothing if there are none, and nothing for a table of names. -/
def unitsTree : Units → List Tree
  | .int n => [leaf "Units" (toString n)]
  | .empty => [leaf "Units" ""]
  | .text s => [leaf "Units" s]
  | .must n => [leaf "Units" ("=" ++ toString n)]
  | _ => []

/-- The text of a resolution: its code, or the factor. -/
def resTree (scale : String → List Char) (r : Res) : List Char :=
  match Json.resCode r, r with
  | some n, _ => (toString n).toList
  | none, .scale s => scale s
  | none, _ => []

/-- A field of a definition. -/
def fieldTree (scale : String → List Char) (f : Field) : Tree := .elem "FieldList".toList ([
  leaf "Name" f.name, leaf "Size" (toString f.size), .elem "Resolution".toList ((resTree scale f.res).map .char),
  leaf "Signed" (truth f.signed)] ++ unitsTree f.units ++ [leaf "Description" f.description,
  leaf "SignalkPath" f.signalkPath, leaf "Offset" (toString f.offset)])

/-- A definition. -/
def pgnTree (scale : String → List Char) (d : Pgn) : Tree := .elem "Pgn".toList ([
  leaf "Description" d.description, leaf "Category" d.category, leaf "Pgn" (toString d.pgn),
  leaf "IsKnown" (truth d.isKnown), leaf "Size" (toString d.size), leaf "RepeatingFields" (toString d.repeatingFields)] ++
  d.fieldList.map (fieldTree scale))

/-! ## Proofs -/

mutual

/-- What a value means. -/
def meaning : Out → Tree
  | .leaf n t => .elem n.toList (t.map .char)
  | .node n l => .elem n.toList (meanings l)

def meanings : List Out → List Tree
  | [] => []
  | o :: l => meaning o :: meanings l

end

mutual

/-- Its events. -/
def flat : Out → List Event
  | .leaf n t => .start n.toList :: t.map .char ++ [.stop n.toList]
  | .node n l => .start n.toList :: flatAll l ++ [.stop n.toList]

def flatAll : List Out → List Event
  | [] => []
  | o :: l => flat o ++ flatAll l

end

/-- A name that can be read back. -/
def Named (n : String) : Prop := ∃ c r, n.toList = c :: r ∧ isNameStart c = true ∧ ∀ x ∈ r, isNameChar x = true

mutual

/-- Names and texts that can be read back. -/
def Fine : Out → Prop
  | .leaf n t => Named n ∧ ∀ c ∈ t, legal c = true
  | .node n l => Named n ∧ FineAll l

def FineAll : List Out → Prop
  | [] => True
  | o :: l => Fine o ∧ FineAll l

end

theorem name_read {n : String} (h : Named n) (r : List Char) : name (n.toList ++ '>' :: r) = some (n.toList, '>' :: r) := by
  obtain ⟨c, l, e, h1, h2⟩ := h
  rw [e]
  have hx : isNameChar '>' = false := by decide
  simp only [List.cons_append, name, h1, if_true]
  rw [List.takeWhile_append_of_pos h2, List.dropWhile_append_of_pos h2]
  simp [hx]

theorem tag_read {n : String} (h : Named n) (mk : List Char → Event) (r : List Char) :
    tag mk (n.toList ++ '>' :: r) = some (mk n.toList, r) := by
  simp [tag, name_read h r]

theorem event_start {n : String} (h : Named n) (r : List Char) :
    event ('<' :: n.toList ++ '>' :: r) = some (.start n.toList, r) := by
  have hn := tag_read h .start r
  obtain ⟨c, l, e, h1, h2⟩ := h
  have hc : c ≠ '/' := by rintro rfl; revert h1; decide
  rw [e] at hn ⊢
  simp only [List.cons_append] at hn ⊢
  simp [event, hn, hc]

theorem event_stop {n : String} (h : Named n) (r : List Char) :
    event ('<' :: '/' :: n.toList ++ '>' :: r) = some (.stop n.toList, r) := by
  simp [event, tag_read h .stop r]

theorem event_ref {name : List Char} (hn : ∀ x ∈ name, x ≠ ';') (r : List Char) :
    event ('&' :: name ++ ';' :: r) = (reference name).map (fun x => (.char x, r)) := by
  have h : ∀ x ∈ name, (decide (x ≠ ';')) = true := by simpa using hn
  have e1 : (name ++ ';' :: r).takeWhile (fun x => decide (x ≠ ';')) = name := by
    rw [List.takeWhile_append_of_pos h]; simp
  have e2 : (name ++ ';' :: r).dropWhile (fun x => decide (x ≠ ';')) = ';' :: r := by
    rw [List.dropWhile_append_of_pos h]; simp
  simp only [event, List.cons_append]
  rw [e1, e2]
  simp

theorem event_char {c : Char} (h : legal c = true) (r : List Char) :
    event (escChar c ++ r) = some (.char c, r) := by
  have ref : ∀ (x : Char) (name : List Char), (∀ y ∈ name, y ≠ ';') → reference name = some x →
      event (('&' :: (name ++ [';'])) ++ r) = some (.char x, r) := by
    intro x name hn hx
    have := event_ref hn r
    rw [hx] at this
    simpa using this
  have hr : inRange c = true := h
  have code : ∀ {x : Char} {n : Nat}, c.toNat = n → x.toNat = n → c = x := by
    intro x n h1 h2
    exact Char.toNat_inj.mp (h1.trans h2.symm)
  unfold escChar
  by_cases h1 : c = '"'
  · subst h1; rw [if_pos rfl]; exact ref _ "#34".toList (by decide) (by decide)
  rw [if_neg h1]
  by_cases h2 : c = '\''
  · subst h2; rw [if_pos rfl]; exact ref _ "#39".toList (by decide) (by decide)
  rw [if_neg h2]
  by_cases h3 : c = '&'
  · subst h3; rw [if_pos rfl]; exact ref _ "amp".toList (by decide) (by decide)
  rw [if_neg h3]
  by_cases h4 : c = '<'
  · subst h4; rw [if_pos rfl]; exact ref _ "lt".toList (by decide) (by decide)
  rw [if_neg h4]
  by_cases h5 : c = '>'
  · subst h5; rw [if_pos rfl]; exact ref _ "gt".toList (by decide) (by decide)
  rw [if_neg h5]
  by_cases h6 : c.toNat = 9
  · rw [if_pos h6, code (x := '\t') h6 rfl]; exact ref _ "#x9".toList (by decide) (by decide)
  rw [if_neg h6]
  by_cases h7 : c.toNat = 10
  · rw [if_pos h7, code (x := '\n') h7 rfl]; exact ref _ "#xA".toList (by decide) (by decide)
  rw [if_neg h7]
  by_cases h8 : c.toNat = 13
  · rw [if_pos h8, code (x := '\r') h8 rfl]; exact ref _ "#xD".toList (by decide) (by decide)
  rw [if_neg h8, if_pos hr]
  simp [event, h4, h3, h5, h8, h]

theorem escChar_ne (c : Char) : escChar c ≠ [] := by
  unfold escChar
  repeat' split
  all_goals simp

/-- The next event, whatever the steps. -/
theorem events_cons {l r : List Char} {e : Event} (h : event l = some (e, r)) (n : Nat) :
    events (n + 1) l = (events n r).map (e :: ·) := by
  cases l with
  | nil => simp [event] at h
  | cons c l => simp [events, h]

theorem events_text {t : List Char} (h : ∀ c ∈ t, legal c = true) (r : List Char) (n : Nat) :
    events (n + t.length) (t.flatMap escChar ++ r) = (events n r).map (t.map .char ++ ·) := by
  induction t with
  | nil => simp
  | cons c t ih =>
    rw [List.flatMap_cons, List.append_assoc, List.length_cons, ← Nat.add_assoc,
      events_cons (event_char (h c (by simp)) _), ih (fun x hx => h x (by simp [hx]))]
    simp [Function.comp_def]

mutual

theorem events_print : (o : Out) → Fine o → ∀ (r : List Char) (n : Nat),
    events (n + (flat o).length) (print o ++ r) = (events n r).map (flat o ++ ·)
  | .leaf s t, h, r, n => by
    have e : print (.leaf s t) ++ r = '<' :: s.toList ++ '>' :: (t.flatMap escChar ++ ('<' :: '/' :: s.toList ++ '>' :: r)) := by
      simp [print]
    have l : n + (flat (.leaf s t)).length = (n + 1 + t.length) + 1 := by simp [flat]; omega
    rw [e, l, events_cons (event_start h.1 _), events_text h.2, events_cons (event_stop h.1 _)]
    simp [flat, Function.comp_def]
  | .node s os, h, r, n => by
    have e : print (.node s os) ++ r = '<' :: s.toList ++ '>' :: (printAll os ++ ('<' :: '/' :: s.toList ++ '>' :: r)) := by
      simp [print]
    have l : n + (flat (.node s os)).length = (n + 1 + (flatAll os).length) + 1 := by simp [flat]; omega
    rw [e, l, events_cons (event_start h.1 _), events_printAll os h.2, events_cons (event_stop h.1 _)]
    simp [flat, Function.comp_def]
termination_by o => sizeOf o

theorem events_printAll : (os : List Out) → FineAll os → ∀ (r : List Char) (n : Nat),
    events (n + (flatAll os).length) (printAll os ++ r) = (events n r).map (flatAll os ++ ·)
  | [], _, r, n => by simp [flatAll, printAll]
  | o :: os, h, r, n => by
    have l : n + (flatAll (o :: os)).length = n + (flatAll os).length + (flat o).length := by simp [flatAll]; omega
    rw [printAll, List.append_assoc, l, events_print o h.1, events_printAll os h.2]
    simp [flatAll, Function.comp_def]
termination_by os => sizeOf os

end

/-- More steps than needed do no harm. -/
theorem events_mono {n : Nat} {l : List Char} {es : List Event} (h : events n l = some es) {m : Nat} (hm : n ≤ m) :
    events m l = some es := by
  induction n generalizing l es m with
  | zero => cases l with
    | nil => cases m <;> simpa [events] using h
    | cons c l => simp [events] at h
  | succ n ih => cases l with
    | nil => cases m <;> simpa [events] using h
    | cons c l =>
      obtain ⟨m, rfl⟩ : ∃ k, m = k + 1 := ⟨m - 1, by omega⟩
      simp only [events, Option.bind_eq_some_iff, Option.map_eq_some_iff] at h ⊢
      obtain ⟨e, h1, es', h2, rfl⟩ := h
      exact ⟨e, h1, es', ih h2 (by omega), rfl⟩

theorem build_chars (n : List Char) (l : List Tree) (up : List (List Char × List Tree)) (t : List Char) (es : List Event) :
    build ((n, l) :: up) (t.map .char ++ es) = build ((n, (t.map Tree.char).reverse ++ l) :: up) es := by
  induction t generalizing l with
  | nil => rfl
  | cons c t ih =>
    rw [List.map_cons, List.cons_append, build, ih]
    simp

theorem build_start (n : List Char) (up : List (List Char × List Tree)) (es : List Event) :
    build up (.start n :: es) = build ((n, []) :: up) es := by
  cases up with
  | nil => simp [build]
  | cons a up => obtain ⟨m, l⟩ := a; simp [build]

theorem build_stop (n m : List Char) (l l' : List Tree) (up : List (List Char × List Tree)) (es : List Event) :
    build ((n, l) :: (m, l') :: up) (.stop n :: es) = build ((m, .elem n l.reverse :: l') :: up) es := by
  simp [build]

mutual

theorem build_flat : (o : Out) → ∀ (n : List Char) (l : List Tree) (up : List (List Char × List Tree)) (es : List Event),
    build ((n, l) :: up) (flat o ++ es) = build ((n, meaning o :: l) :: up) es
  | .leaf s t, n, l, up, es => by
    simp only [flat, List.cons_append, List.append_assoc, List.nil_append]
    rw [build_start, build_chars, build_stop]
    simp [meaning]
  | .node s os, n, l, up, es => by
    simp only [flat, List.cons_append, List.append_assoc, List.nil_append]
    rw [build_start, build_flatAll os, build_stop]
    simp [meaning]
termination_by o => sizeOf o

theorem build_flatAll : (os : List Out) → ∀ (n : List Char) (l : List Tree) (up : List (List Char × List Tree)) (es : List Event),
    build ((n, l) :: up) (flatAll os ++ es) = build ((n, (meanings os).reverse ++ l) :: up) es
  | [], n, l, up, es => by simp [flatAll, meanings]
  | o :: os, n, l, up, es => by
    rw [flatAll, List.append_assoc, build_flat o, build_flatAll os]
    simp [meanings]
termination_by os => sizeOf os

end

theorem build_one (o : Out) : build [] (flat o) = some (meaning o) := by
  cases o with
  | leaf s t =>
    simp only [flat, List.cons_append]
    rw [build_start, build_chars]
    simp [build, meaning]
  | node s os =>
    simp only [flat, List.cons_append]
    rw [build_start, build_flatAll]
    simp [build, meaning]

mutual

theorem flat_length : (o : Out) → (flat o).length ≤ (print o).length
  | .leaf s t => by
    have : t.length ≤ (t.flatMap escChar).length := by
      induction t with
      | nil => simp
      | cons c t ih =>
        have := List.length_pos_of_ne_nil (escChar_ne c)
        simp only [List.length_cons, List.flatMap_cons, List.length_append]; omega
    simp only [flat, print, List.length_append, List.length_cons, List.length_map, List.length_nil]; omega
  | .node s os => by
    have := flatAll_length os
    simp only [flat, print, List.length_append, List.length_cons, List.length_nil]; omega
termination_by o => sizeOf o

theorem flatAll_length : (os : List Out) → (flatAll os).length ≤ (printAll os).length
  | [] => by simp [flatAll]
  | o :: os => by
    have := flat_length o; have := flatAll_length os
    simp only [flatAll, printAll, List.length_append]; omega
termination_by os => sizeOf os

end

theorem utf8_length (l : List Char) : l.length ≤ (l.flatMap String.utf8EncodeChar).length := by
  induction l with
  | nil => simp
  | cons c l ih =>
    have : 1 ≤ (String.utf8EncodeChar c).length := by rw [String.length_utf8EncodeChar]; exact Char.utf8Size_pos c
    simp only [List.length_cons, List.flatMap_cons, List.length_append]; omega

/-- What was written is read back. -/
theorem read_print {o : Out} (h : Fine o) : readXml ((print o).flatMap String.utf8EncodeChar) = some (meaning o) := by
  have h1 := events_print o h [] 0
  rw [List.append_nil, Nat.zero_add] at h1
  have h2 : events (flat o).length (print o) = some (flat o) := by rw [h1]; simp [events]
  unfold readXml
  rw [Json.chars_utf8, events_mono h2 (Nat.le_trans (flat_length o) (utf8_length _))]
  exact build_one o

/-! ### Definitions -/

/-- A text without control characters and without the characters that begin with the byte EF. -/
def clean (s : String) : Bool := (bs s).all fun b => decide (32 ≤ b.toNat ∧ b.toNat ≠ 0xEF)

theorem char_clean {c : Char} (h : ∀ b ∈ String.utf8EncodeChar c, 32 ≤ b.toNat ∧ b.toNat ≠ 0xEF) : legal c = true := by
  have hv := c.valid
  have h32 : 32 ≤ c.toNat := by
    by_contra hlt
    have e : String.utf8EncodeChar c = [UInt8.ofNat c.toNat] := by
      have : c.toNat ≤ 127 := by omega
      simp [String.utf8EncodeChar, this]
    have := (h (UInt8.ofNat c.toNat) (by rw [e]; simp)).1
    have h2 : (UInt8.ofNat c.toNat).toNat = c.toNat % 256 := UInt8.toNat_ofNat'
    omega
  have hE : c.toNat ≠ 0xFFFE ∧ c.toNat ≠ 0xFFFF := by
    constructor <;>
    · intro e
      have e' : c.val.toNat = _ := e
      have hb : (UInt8.ofNat 0xEF) ∈ String.utf8EncodeChar c := by
        unfold String.utf8EncodeChar
        simp only [e']
        decide
      exact absurd rfl (h _ hb).2
  have hv' : c.toNat < 0xD800 ∨ (0xDFFF < c.toNat ∧ c.toNat < 0x110000) := hv
  unfold legal
  simp only [decide_eq_true_eq]
  omega

theorem clean_legal {s : String} (h : clean s = true) : ∀ c ∈ s.toList, legal c = true := by
  intro c hc
  refine char_clean fun b hb => ?_
  have := List.all_eq_true.mp h b (by rw [Json.bs_eq]; exact List.mem_flatMap.mpr ⟨c, hc, hb⟩)
  simpa using this

/-- The texts of a definition. -/
def UnitsLegal : Units → Bool
  | .text s => clean s
  | _ => true

def FieldLegal (f : Field) : Bool :=
  clean f.name && UnitsLegal f.units && clean f.description && clean f.signalkPath

def PgnLegal (d : Pgn) : Bool := clean d.description && clean d.category && d.fieldList.all FieldLegal

theorem shipped_legal : ∀ d ∈ Table.pgnList, PgnLegal d = true := by decide +kernel

/-- No table of tables. -/
def Plain (d : Pgn) : Prop := ∀ f ∈ d.fieldList, ∀ t, f.units ≠ .subLookup t

theorem legal_digit {c : Char} (h : c.isDigit = true) : legal c = true := by
  have := Json.digit_ascii h
  unfold legal
  simp only [decide_eq_true_eq]
  omega

theorem legal_nat (n : Nat) : ∀ c ∈ (toString n).toList, legal c = true := fun c hc => legal_digit (Json.dec_digits n c hc)

theorem legal_int (i : Int) : ∀ c ∈ (toString i).toList, legal c = true := by
  cases i with
  | ofNat n => exact legal_nat n
  | negSucc n =>
    have e : toString (Int.negSucc n) = "-" ++ toString (n + 1) := rfl
    rw [e, String.toList_append]
    intro c hc
    rcases List.mem_append.mp hc with hc | hc
    · rw [show "-".toList = ['-'] from rfl, List.mem_singleton] at hc; subst hc; decide
    · exact legal_nat _ c hc

theorem legal_bool (b : Bool) : ∀ c ∈ boolText b, legal c = true := by cases b <;> decide

theorem resText_eq (scale : String → List Char) (r : Res) : resText scale r = resTree scale r := by
  cases r <;> rfl

theorem legal_res {scale : String → List Char} (hs : ∀ s, ∀ c ∈ scale s, legal c = true) (r : Res) :
    ∀ c ∈ resText scale r, legal c = true := by
  cases r with
  | scale s => exact hs s
  | _ => simp only [resText]; decide

theorem named_of {n : String} (h : n.toList.head?.any isNameStart = true ∧ n.toList.tail.all isNameChar = true) : Named n := by
  cases e : n.toList with
  | nil => simp [e] at h
  | cons c r => exact ⟨c, r, e, by simpa [e] using h.1, by simpa [e] using h.2⟩

theorem fine_leaf {n : String} (hn : Named n) {t : List Char} (h : ∀ c ∈ t, legal c = true) : Fine (.leaf n t) := ⟨hn, h⟩

theorem fineAll_append {a b : List Out} : FineAll (a ++ b) ↔ FineAll a ∧ FineAll b := by
  induction a with
  | nil => simp [FineAll]
  | cons o a ih => simp [FineAll, ih, and_assoc]

theorem meanings_append (a b : List Out) : meanings (a ++ b) = meanings a ++ meanings b := by
  induction a with
  | nil => rfl
  | cons o a ih => simp [meanings, ih]

theorem units_fine {u : Units} (hl : UnitsLegal u = true) (hp : ∀ t, u ≠ .subLookup t) :
    ∃ l, unitsOut u = some l ∧ FineAll l ∧ meanings l = unitsTree u := by
  have hn : Named "Units" := named_of (by decide)
  cases u with
  | nil => exact ⟨_, rfl, trivial, rfl⟩
  | int n => exact ⟨_, rfl, ⟨⟨hn, legal_int n⟩, trivial⟩, rfl⟩
  | empty => exact ⟨_, rfl, ⟨⟨hn, by simp⟩, trivial⟩, rfl⟩
  | text s => exact ⟨_, rfl, ⟨⟨hn, clean_legal hl⟩, trivial⟩, rfl⟩
  | must n =>
    refine ⟨_, rfl, ⟨⟨hn, ?_⟩, trivial⟩, rfl⟩
    intro c hc
    rw [String.toList_append] at hc
    rcases List.mem_append.mp hc with hc | hc
    · rw [show "=".toList = ['='] from rfl, List.mem_singleton] at hc; subst hc; decide
    · exact legal_nat _ c hc
  | lookup t => exact ⟨_, rfl, trivial, rfl⟩
  | subLookup t => exact absurd rfl (hp t)

theorem field_fine {scale : String → List Char} (hs : ∀ s, ∀ c ∈ scale s, legal c = true) {f : Field}
    (hl : FieldLegal f = true) (hp : ∀ t, f.units ≠ .subLookup t) :
    ∃ o, fieldOut scale f = some o ∧ Fine o ∧ meaning o = fieldTree scale f := by
  unfold FieldLegal at hl
  simp only [Bool.and_eq_true] at hl
  obtain ⟨⟨⟨h1, h2⟩, h3⟩, h4⟩ := hl
  obtain ⟨u, e, hf, hm⟩ := units_fine h2 hp
  refine ⟨.node "FieldList" _, by rw [fieldOut, e]; rfl, And.intro (named_of (by decide)) ?_, ?_⟩
  · rw [fineAll_append, fineAll_append]
    exact ⟨⟨⟨⟨named_of (by decide), clean_legal h1⟩, ⟨named_of (by decide), legal_nat _⟩, ⟨named_of (by decide), legal_res hs _⟩,
      ⟨named_of (by decide), legal_bool _⟩, trivial⟩, hf⟩, ⟨named_of (by decide), clean_legal h3⟩, ⟨named_of (by decide), clean_legal h4⟩,
      ⟨named_of (by decide), legal_int _⟩, trivial⟩
  · rw [meaning, meanings_append, meanings_append, hm, fieldTree]
    simp only [meanings, meaning, leaf, resText_eq]
    cases f.signed <;> rfl

theorem fields_fine {scale : String → List Char} (hs : ∀ s, ∀ c ∈ scale s, legal c = true) {l : List Field}
    (hl : l.all FieldLegal = true) (hp : ∀ f ∈ l, ∀ t, f.units ≠ .subLookup t) :
    ∃ os, fieldsOut scale l = some os ∧ FineAll os ∧ meanings os = l.map (fieldTree scale) := by
  induction l with
  | nil => exact ⟨[], rfl, trivial, rfl⟩
  | cons f l ih =>
    simp only [List.all_cons, Bool.and_eq_true] at hl
    obtain ⟨o, e1, f1, m1⟩ := field_fine hs hl.1 (hp f (by simp))
    obtain ⟨os, e2, f2, m2⟩ := ih hl.2 (fun g hg => hp g (by simp [hg]))
    exact ⟨o :: os, by simp [fieldsOut, e1, e2], ⟨f1, f2⟩, by simp [meanings, m1, m2]⟩

theorem pgn_fine {scale : String → List Char} (hs : ∀ s, ∀ c ∈ scale s, legal c = true) {d : Pgn}
    (hl : PgnLegal d = true) (hp : Plain d) :
    ∃ o, pgnOut scale d = some o ∧ Fine o ∧ meaning o = pgnTree scale d := by
  unfold PgnLegal at hl
  simp only [Bool.and_eq_true] at hl
  obtain ⟨⟨h1, h2⟩, h3⟩ := hl
  obtain ⟨os, e, f, m⟩ := fields_fine hs h3 hp
  refine ⟨.node "Pgn" _, by rw [pgnOut, e]; rfl, And.intro (named_of (by decide)) ?_, ?_⟩
  · rw [fineAll_append]
    exact ⟨⟨⟨named_of (by decide), clean_legal h1⟩, ⟨named_of (by decide), clean_legal h2⟩,
      ⟨named_of (by decide), legal_nat _⟩, ⟨named_of (by decide), legal_bool _⟩, ⟨named_of (by decide), legal_nat _⟩,
      ⟨named_of (by decide), legal_nat _⟩, trivial⟩, f⟩
  · rw [meaning, meanings_append, m, pgnTree]
    simp only [meanings, meaning, leaf]
    cases d.isKnown <;> rfl

/-! ## Theorems -/

/-- **C109**, as far as it holds: the details asked for in XML, of a definition without a table of tables, are one XML
element with the whole definition, except that tables of names are left out. -/
theorem C109_details_partial {scale : String → List Char} (hs : ∀ s, ∀ c ∈ scale s, legal c = true) {key : Str} {d : Pgn}
    (h : Main.messageDetails Table.pgnList key = .ok (d, true)) (hp : ∀ f ∈ d.fieldList, ∀ t, f.units ≠ .subLookup t) :
    ∃ b, detailsReply scale Table.pgnList key = .ok (some b) ∧ readXml b = some (pgnTree scale d) := by
  obtain ⟨o, e, f, m⟩ := pgn_fine hs (shipped_legal d (Json.details_mem h)) hp
  refine ⟨_, by unfold detailsReply; rw [h]; rfl, ?_⟩
  rw [e, Option.map_some, Option.getD_some, read_print f, m]

/-- **C109** is false of definitions with a table of tables (PGN 60928 is one): the reply is empty, which is no XML. -/
theorem C109_claim_false {scale : String → List Char} {key : Str} {d : Pgn}
    (h : Main.messageDetails Table.pgnList key = .ok (d, true)) (hp : ¬ ∀ f ∈ d.fieldList, ∀ t, f.units ≠ .subLookup t) :
    detailsReply scale Table.pgnList key = .ok (some []) ∧ readXml [] = none := by
  have key : ∀ l : List Field, (¬ ∀ f ∈ l, ∀ t, f.units ≠ .subLookup t) → fieldsOut scale l = none := by
    intro l
    induction l with
    | nil => intro h; exact absurd (by simp) h
    | cons f l ih =>
      intro h
      by_cases hf : ∀ t, f.units ≠ .subLookup t
      · have := ih (fun h' => h (fun g hg => by
          rcases List.mem_cons.mp hg with rfl | hg
          · exact hf
          · exact h' g hg))
        cases hfo : fieldOut scale f <;> simp [fieldsOut, hfo, this]
      · simp only [ne_eq, not_forall, not_not] at hf
        obtain ⟨t, ht⟩ := hf
        simp [fieldsOut, fieldOut, ht, unitsOut]
  refine ⟨?_, rfl⟩
  unfold detailsReply
  rw [h]
  simp [pgnOut, key _ hp, bind, Except.bind, pure, Except.pure]

/-- A definition without its tables of names. -/
def withoutTables (d : Pgn) : Pgn :=
  { d with fieldList := d.fieldList.map fun f =>
      match f.units with
      | .lookup _ => { f with units := .nil }
      | _ => f }

theorem tree_withoutTables (scale : String → List Char) (d : Pgn) : pgnTree scale (withoutTables d) = pgnTree scale d := by
  unfold pgnTree withoutTables
  simp only [List.map_map]
  congr 2
  refine List.map_congr_left fun f _ => ?_
  simp only [Function.comp]
  split
  · rename_i h; simp [fieldTree, h, unitsTree]
  · rfl

/-- **C109** is false of tables of names: some definitions have them, and the reply for such a definition reads like
one for a definition without. -/
theorem C109_tables_false {scale : String → List Char} (hs : ∀ s, ∀ c ∈ scale s, legal c = true) :
    ∃ (key : Str) (d : Pgn) (f : Field) (t : String), Main.messageDetails Table.pgnList key = .ok (d, true) ∧
      f ∈ d.fieldList ∧ f.units = .lookup t ∧ (∀ g ∈ (withoutTables d).fieldList, ∀ t, g.units ≠ .lookup t) ∧
      ∃ b, detailsReply scale Table.pgnList key = .ok (some b) ∧ readXml b = some (pgnTree scale (withoutTables d)) := by
  have h : Main.messageDetails Table.pgnList (bs "1.xml") = .ok (Table.p1, true) := by decide +kernel
  refine ⟨bs "1.xml", Table.p1, _, _, h, List.mem_cons_self, rfl, by simp [withoutTables, Table.p1], ?_⟩
  rw [tree_withoutTables]
  exact C109_details_partial hs h (by simp [Table.p1])

/-! ### The hypotheses can be met -/

/-- A factor as text, for the examples. -/
def exampleScale : String → List Char := fun _ => "0.01".toList

example : ∀ s, ∀ c ∈ exampleScale s, legal c = true := by intro s; simp only [exampleScale]; decide

example : Main.messageDetails Table.pgnList (bs "2.xml") = .ok (Table.p2, true) ∧
    Main.messageDetails Table.pgnList (bs "60928.xml") = .ok (Table.p3, true) := by decide +kernel

example : ∀ f ∈ Table.p2.fieldList, ∀ t, f.units ≠ .subLookup t := by
  simp [Table.p2]

example : ¬ ∀ f ∈ Table.p3.fieldList, ∀ t, f.units ≠ .subLookup t := by
  simp [Table.p3]

example : ((pgnOut exampleScale Table.p2).map (fun o => String.ofList (print o))) =
    some ("<Pgn><Description>ISO Request</Description><Category>Mandatory</Category><Pgn>59904</Pgn>" ++
      "<IsKnown>true</IsKnown><Size>3</Size><RepeatingFields>0</RepeatingFields><FieldList><Name>PGN</Name><Size>24</Size>" ++
      "<Resolution>-8</Resolution><Signed>false</Signed><Description></Description><SignalkPath></SignalkPath>" ++
      "<Offset>0</Offset></FieldList></Pgn>") := by decide +kernel

/-- A text that needs escapes. -/
example : readXml ((print (.leaf "Name" "a<b & \"c\"".toList)).flatMap String.utf8EncodeChar) =
    some (.elem "Name".toList ("a<b & \"c\"".toList.map .char)) := by
  exact read_print ⟨named_of (by decide), by decide⟩

/-- Bytes that are no XML. -/
example : readXml (bs "<a><b></a></b>") = none ∧ readXml (bs "<a>x") = none ∧ readXml (bs "<a></a>x") = none ∧
    readXml (bs "<a>&x;</a>") = none := by
  refine ⟨?_, ?_, ?_, ?_⟩ <;> rfl

end Argo.Xml
