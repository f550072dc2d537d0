import Verif.Json.Delta
import Verif.Json.Fuel
import Mathlib.Data.List.Sort
import Verif.Main.Statistics
import Verif.Main.ApiProps
import Verif.Main.Details
import Verif.Nmea2k.Lookups
import Verif.Routes.Model

set_option autoImplicit false

/-!
# The JSON of the HTTP interfaces (C105)

What a client that reads JSON as RFC 8259 says finds in the statistics messages, in the replies of the message API,
in the reply of /admin/uuid and in the reply to an installation.
-/

namespace Argo.Json

open Argo
open Argo.Nmea2k (Pgn Field Units Res)
open Argo.Nmea2k
open Argo.Main (Counters IndexEntry decimal)
open Argo.Signalk (Str bs)

/-! ## Model -/

/-- argo.go:183 `json.Marshal(statLog)` of a `map[string]uint64`; encoding/json sorts the keys (bytewise, which is
the order of code points). -/
def countersOut (log : Counters) : Out :=
  .obj ((log.insertionSort (fun a b => a.1 ≤ b.1)).map (fun e => (bs e.1, .num (bs (toString e.2.toNat)))))

/-- api_server.go:34-43 `IndexEntry`. -/
def entryOut (e : IndexEntry) : Out := .obj [
  (bs "Pgn", .num (bs (toString e.pgn))), (bs "Name", .str (bs e.name)), (bs "Category", .str (bs e.category)),
  (bs "Verified", .bool e.verified), (bs "Size", .num (bs (toString e.size))),
  (bs "RepeatingFields", .num (bs (toString e.repeatingFields))), (bs "Type", .str (bs e.type)),
  (bs "@Details", .str e.details)]

/-- api_server.go:78, 108: the slice is nil until something is appended. -/
def indexOut (l : List IndexEntry) : Out := if l.isEmpty then .null else .arr (l.map entryOut)

/-- api_server.go:76-113 `MessagesIndex`: the body of the reply. -/
def indexReply (newer : Bool) (tbl : List Pgn) (fold : String → String → Bool) (category typ : String) :
    GoM (List Byte) := do
  let l ← Main.messagesIndex tbl fold category typ
  return printIndent newer (indexOut l)

/-- The number of a `Field.Resolution` (pgn_array.go:36-56) as encoding/json prints it; `scale` gives the text of
the other factors. -/
def resText (scale : String → List Byte) : Res → List Byte
  | .ascii => bs "-1"
  | .latitude => bs "-2"
  | .longitude => bs "-3"
  | .date => bs "-4"
  | .time => bs "-5"
  | .temperature => bs "-6"
  | .sixBitAscii => bs "-7"
  | .integer => bs "-8"
  | .lookup => bs "-9"
  | .lookup2 => bs "-10"
  | .binary => bs "-11"
  | .manufacturer => bs "-12"
  | .string => bs "-13"
  | .float => bs "-14"
  | .pressure => bs "-15"
  | .stringLZ => bs "-16"
  | .notUsed => bs "0"
  | .one => bs "1"
  | .scale s => scale s

/-- The order in which the entries of a map come up: for each field, and for each row of a table of tables. -/
abbrev MapOrder := Nat → Nat → List (Nat × String) → List (Nat × String)

/-- pgn_array.go:81-92 `PgnLookup.MarshalJSON`: an array (nil for an empty map) of objects, in the order of the
range over the map. -/
def lookupOut (l : List (Nat × String)) : Out :=
  if l.isEmpty then .null
  else .arr (l.map (fun e => .obj [(bs "Name", .str (bs e.2)), (bs "Value", .num (bs (toString e.1)))]))

/-- The entries of a table of names (lookups.go). -/
def tableOf (name : String) : List (Nat × String) := ((Lookups.tables.find? (fun e => e.1 = name)).map Prod.snd).getD []

/-- The only `PgnSubLookup` (lookups.go). -/
def subTableOf (name : String) : List (Nat × List (Nat × String)) :=
  if name = "lookupDeviceFunction" then Lookups.lookupDeviceFunction else []

/-- `Field.Units` (pgn_array.go:63) of field `k`. -/
def unitsOut (ord : MapOrder) (k : Nat) : Units → Out
  | .nil => .null
  | .int n => .num (bs (toString n))
  | .empty => .str []
  | .text s => .str (bs s)
  | .must n => .str (bs ("=" ++ toString n))
  | .lookup name => lookupOut (ord k 0 (tableOf name))
  | .subLookup name =>
    .obj (((subTableOf name).insertionSort (fun a b => toString a.1 ≤ toString b.1)).map
      (fun e => (bs (toString e.1), lookupOut (ord k e.1 e.2))))

/-- pgn_array.go:58-67 `Field`. -/
def fieldOut (scale : String → List Byte) (ord : MapOrder) (k : Nat) (f : Field) : Out := .obj [
  (bs "Name", .str (bs f.name)), (bs "Size", .num (bs (toString f.size))), (bs "Resolution", .num (resText scale f.res)),
  (bs "Signed", .bool f.signed), (bs "Units", unitsOut ord k f.units), (bs "Description", .str (bs f.description)),
  (bs "SignalkPath", .str (bs f.signalkPath)), (bs "Offset", .num (bs (toString f.offset)))]

def fieldsOut (scale : String → List Byte) (ord : MapOrder) : Nat → List Field → List Out
  | _, [] => []
  | k, f :: l => fieldOut scale ord k f :: fieldsOut scale ord (k + 1) l

/-- pgn_array.go:69-77 `Pgn`. -/
def pgnOut (scale : String → List Byte) (ord : MapOrder) (d : Pgn) : Out := .obj [
  (bs "Description", .str (bs d.description)), (bs "Category", .str (bs d.category)),
  (bs "Pgn", .num (bs (toString d.pgn))), (bs "IsKnown", .bool d.isKnown), (bs "Size", .num (bs (toString d.size))),
  (bs "RepeatingFields", .num (bs (toString d.repeatingFields))), (bs "FieldList", .arr (fieldsOut scale ord 0 d.fieldList))]

/-- api_server.go:114-145 `MessageDetailsHandler`: the body of a reply in JSON, `none` for one in XML. -/
def detailsReply (newer : Bool) (scale : String → List Byte) (ord : MapOrder) (tbl : List Pgn) (key : Str) :
    GoM (Option (List Byte)) := do
  let (d, xml) ← Main.messageDetails tbl key
  return if xml then none else some (printIndent newer (pgnOut scale ord d))

/-- One digit of `uuid.UUID.String` after `strings.ToUpper`. -/
def hexUp (n : Nat) : Byte := if n < 10 then UInt8.ofNat (48 + n) else UInt8.ofNat (55 + n)

def hexes (l : List Byte) : Str := l.flatMap (fun b => [hexUp (b.toNat / 16), hexUp (b.toNat % 16)])

/-- ui_server.go:76-80, 90: the text of the UUID has its dashes after 4, 6, 8 and 10 bytes; `strings.Split` gives the
parts between them. -/
def uuidReply (newer : Bool) (u : List Byte) : List Byte :=
  print newer (.obj [(bs "uuid", .arr [.str (hexes (u.take 4)), .str (hexes ((u.drop 4).take 2)),
    .str (hexes ((u.drop 6).take 2)), .str (hexes ((u.drop 8).take 2)), .str (hexes (u.drop 10))])])

/-- ui_server.go:154-186: the body of the reply to an installation that was tried: the error, or the path of
the package (`getPathForPackage`); `dir` is `./node_modules`. -/
def installReply : Except Str Str → List Byte
  | .error err => bs "{\"result\":\"error\",\"message\":\"" ++ err ++ bs "\"}"
  | .ok path => bs "{\"result\":\"ok\",\"url\":\"" ++ path ++ bs "\",\"dir\":\"" ++ bs "./node_modules" ++ bs "\"}"

/-! ## Specification -/

/-- An object with the given counters, in whatever order. -/
def CountersJson (log : Counters) (j : Json) : Prop :=
  ∃ l, l.Perm (log.map (fun e => (e.1.toList, jnat e.2.toNat))) ∧ j = .obj l

/-- The kind of a message by its size, as the index names it. -/
def kindName (size : Nat) : String :=
  if size ≤ 8 then "Single Frame" else if size ≤ 223 then "Fast Packet"
  else if size ≤ 1785 then "ISO 11783 Multi-Packet" else "Invalid"

/-- The entry of the definition with index `i`. -/
def entryJson (i : Nat) (d : Pgn) : Json := .obj [
  ("Pgn".toList, jnat d.pgn), ("Name".toList, jstr d.description), ("Category".toList, jstr d.category),
  ("Verified".toList, .bool d.isKnown), ("Size".toList, jnat d.size), ("RepeatingFields".toList, jnat d.repeatingFields),
  ("Type".toList, jstr (kindName d.size)), ("@Details".toList, jstr ("/api/v1/messages/" ++ toString i))]

/-- A table of names: every entry once, in whatever order. -/
def TableJson (t : List (Nat × String)) (j : Json) : Prop :=
  ∃ l : List (Nat × String), l.Perm t ∧ j = .arr (l.map (fun e => .obj [("Name".toList, jstr e.2), ("Value".toList, jnat e.1)]))

/-- The units of a field: nothing, a number, a text, a table of names or a table of tables. -/
inductive UnitsJson : Units → Json → Prop where
  | nil : UnitsJson .nil .null
  | int (n : Int) : UnitsJson (.int n) (.num (bs (toString n)))
  | empty : UnitsJson .empty (jstr "")
  | text (s : String) : UnitsJson (.text s) (jstr s)
  | must (n : Nat) : UnitsJson (.must n) (jstr ("=" ++ toString n))
  | lookup {name : String} {t : List (Nat × String)} {j : Json} : (name, t) ∈ Lookups.tables → TableJson t j →
      UnitsJson (.lookup name) j
  | sub {rows : List (Nat × List (Nat × String))} {l : List (List Char × Json)} :
      rows.Perm Lookups.lookupDeviceFunction →
      List.Forall₂ (fun e m => m.1 = (toString e.1).toList ∧ TableJson e.2 m.2) rows l →
      UnitsJson (.subLookup "lookupDeviceFunction") (.obj l)

/-- The number of a resolution. -/
def resCode : Res → Option Int
  | .ascii => some (-1)
  | .latitude => some (-2)
  | .longitude => some (-3)
  | .date => some (-4)
  | .time => some (-5)
  | .temperature => some (-6)
  | .sixBitAscii => some (-7)
  | .integer => some (-8)
  | .lookup => some (-9)
  | .lookup2 => some (-10)
  | .binary => some (-11)
  | .manufacturer => some (-12)
  | .string => some (-13)
  | .float => some (-14)
  | .pressure => some (-15)
  | .stringLZ => some (-16)
  | .notUsed => some 0
  | .one => some 1
  | .scale _ => none

/-- A resolution: its code, or the text of the factor. -/
def ResJson (scale : String → List Byte) (r : Res) (j : Json) : Prop :=
  (∃ n, resCode r = some n ∧ j = .num (bs (toString n))) ∨ (∃ s, r = .scale s ∧ j = .num (scale s))

/-- A field of a definition. -/
def FieldJson (scale : String → List Byte) (f : Field) (j : Json) : Prop :=
  ∃ r u, ResJson scale f.res r ∧ UnitsJson f.units u ∧ j = .obj [
    ("Name".toList, jstr f.name), ("Size".toList, jnat f.size), ("Resolution".toList, r),
    ("Signed".toList, .bool f.signed), ("Units".toList, u), ("Description".toList, jstr f.description),
    ("SignalkPath".toList, jstr f.signalkPath), ("Offset".toList, .num (bs (toString f.offset)))]

/-- A definition. -/
def PgnJson (scale : String → List Byte) (d : Pgn) (j : Json) : Prop :=
  ∃ fs, List.Forall₂ (FieldJson scale) d.fieldList fs ∧ j = .obj [
    ("Description".toList, jstr d.description), ("Category".toList, jstr d.category), ("Pgn".toList, jnat d.pgn),
    ("IsKnown".toList, .bool d.isKnown), ("Size".toList, jnat d.size),
    ("RepeatingFields".toList, jnat d.repeatingFields), ("FieldList".toList, .arr fs)]

/-- The bytes whose hexadecimal digits (upper case) the characters are. -/
def unhex : List Char → Option (List Byte)
  | [] => some []
  | [_] => none
  | a :: b :: l =>
    match "0123456789ABCDEF".toList.idxOf? a, "0123456789ABCDEF".toList.idxOf? b, unhex l with
    | some x, some y, some r => some (UInt8.ofNat (16 * x + y) :: r)
    | _, _, _ => none

/-- Characters that need no escape in a JSON string. -/
def Bare (cs : List Char) : Prop := ∀ c ∈ cs, c ≠ '"' ∧ c ≠ '\\' ∧ 0x20 ≤ c.toNat

/-! ## Lemmas -/

theorem meanings_eq (l : List Out) : meanings l = l.map meaning := by
  induction l with
  | nil => rfl
  | cons v l ih => simp [meanings, ih]

theorem fields_eq (l : List (Str × Out)) : fields l = l.map (fun e => (chars e.1, meaning e.2)) := by
  induction l with
  | nil => rfl
  | cons v l ih => simp [fields, ih]

theorem numbersL_iff (l : List Out) : NumbersL l ↔ ∀ o ∈ l, Numbers o := by
  induction l with
  | nil => simp [NumbersL]
  | cons v l ih => simp [NumbersL, ih]

theorem numbersO_iff (l : List (Str × Out)) : NumbersO l ↔ ∀ e ∈ l, Numbers e.2 := by
  induction l with
  | nil => simp [NumbersO]
  | cons v l ih => simp [NumbersO, ih]

theorem toString_nat_bytes (n : Nat) : decimal n = bs (toString n) := by
  induction n using Nat.strongRecOn with
  | ind n ih =>
    have key : ∀ k : Fin 10, bs (toString k.val) = [UInt8.ofNat (48 + k.val)] := by decide +kernel
    have hd : ∀ k : Fin 10, bs (String.ofList [k.val.digitChar]) = [UInt8.ofNat (48 + k.val)] := by decide +kernel
    unfold decimal
    split
    · next h => exact (key ⟨n, h⟩).symm
    · next h =>
      rw [ih (n / 10) (by omega)]
      have e : toString n = toString (n / 10) ++ String.ofList [(n % 10).digitChar] := by
        apply String.toList_injective
        have h1 : (toString n).toList = Nat.toDigits 10 n := Nat.toList_repr
        have h2 : (toString (n / 10)).toList = Nat.toDigits 10 (n / 10) := Nat.toList_repr
        rw [String.toList_append, h1, h2, String.toList_ofList, Nat.toDigits_of_base_le (by omega) (by omega)]
      rw [e, bs_append, hd ⟨n % 10, by omega⟩]

/-! ## Statistics -/

theorem counters_numbers (log : Counters) : Numbers (countersOut log) := by
  unfold countersOut Numbers
  rw [numbersO_iff]
  intro e he
  obtain ⟨x, _, rfl⟩ := List.mem_map.mp he
  simpa [Numbers] using isNumber_nat x.2.toNat

theorem counters_meaning (log : Counters) : CountersJson log (meaning (countersOut log)) := by
  unfold countersOut meaning
  refine ⟨_, ?_, rfl⟩
  rw [fields_eq, List.map_map]
  have e : ((fun e : Str × Out => (chars e.1, meaning e.2)) ∘ fun e : String × UInt64 => (bs e.1, Out.num (bs (toString e.2.toNat)))) =
      fun e => (e.1.toList, jnat e.2.toNat) := by
    funext e
    simp [chars_bs, meaning, jnat]
  rw [e]
  exact (List.perm_insertionSort _ log).map _

/-- **C105** (statistics messages): the bytes are one JSON text, an object with a counter for each PGN. -/
theorem C105_counters (newer : Bool) (log : Counters) :
    ∃ j, CountersJson log j ∧ ∀ j', Reads (print newer (countersOut log)) j' ↔ j' = j :=
  ⟨_, counters_meaning log, fun j' => reads_print_iff newer (counters_numbers log) j'⟩

/-- The object says how often each PGN occurred: a member for every PGN seen, no other, each once. -/
structure CountsJson (history : List Nat) (j : Json) : Prop where
  object : ∃ l, j = .obj l ∧ (l.map Prod.fst).Nodup ∧
    ∀ k v, (k, v) ∈ l ↔ ∃ p ∈ history, k = (toString p).toList ∧ v = jnat (history.count p % 2 ^ 64)

theorem mapGet_mem {log : Counters} (hk : (log.map Prod.fst).Nodup) (k : String) (v : UInt64) :
    (k, v) ∈ log ↔ Main.mapGet log k = some v := by
  induction log with
  | nil => simp [Main.mapGet]
  | cons e log ih =>
    obtain ⟨a, b⟩ := e
    simp only [List.map_cons, List.nodup_cons] at hk
    have ih := ih hk.2
    unfold Main.mapGet at ih ⊢
    by_cases h : a = k
    · subst h
      simp only [List.mem_cons, Prod.mk.injEq, true_and]
      have : ∀ v, (a, v) ∉ log := fun v hv => hk.1 (List.mem_map.mpr ⟨_, hv, rfl⟩)
      simp [this, eq_comm]
    · have h' : k ≠ a := fun e => h e.symm
      simp [h, h', ih]

/-- **C105** (statistics clients): the n-th statistics message a client receives, in any schedule, is one JSON text,
an object that says how often each PGN occurred among the messages taken up to some moment. -/
theorem C105_client {δ β : Type} [DecidableEq β] {P : Main.Program δ β} (hs : Main.Sorts P.sort) (newer : Bool)
    {es : List (Main.SysEvent δ β)} {s : Main.Sys δ β} (ho : Main.Ordinary es)
    (h : Main.sysExec P Main.Sys.init es = some (.ok s)) {c : Hub.Id}
    (hc : Hub.Spec.registered c (Main.stTrace es)) {n : Nat} {log : Counters} (hn : (s.st.got c)[n]? = some log) :
    ∃ j, CountsJson (s.history.take (Main.before c (Main.stTrace es) + n + 1)) j ∧
      ∀ j', Reads (print newer (countersOut log)) j' ↔ j' = j := by
  obtain ⟨_, h1⟩ := Main.C97_client hs ho h hc hn
  obtain ⟨j, ⟨l, hl, rfl⟩, h3⟩ := C105_counters newer log
  refine ⟨_, ⟨l, rfl, ?_, fun k v => ?_⟩, h3⟩
  · rw [(hl.map Prod.fst).nodup_iff, List.map_map]
    have e : (Prod.fst ∘ fun e : String × UInt64 => (e.1.toList, jnat e.2.toNat)) = String.toList ∘ Prod.fst := rfl
    rw [e, ← List.map_map]
    exact h1.keys.map (fun a b => String.toList_injective)
  · rw [hl.mem_iff, List.mem_map]
    constructor
    · rintro ⟨⟨a, b⟩, hab, he⟩
      simp only [Prod.mk.injEq] at he
      obtain ⟨rfl, rfl⟩ := he
      have hg := (mapGet_mem h1.keys a b).mp hab
      by_cases hx : ∀ p ∈ s.history.take (Main.before c (Main.stTrace es) + n + 1), a ≠ toString p
      · rw [h1.unseen a hx] at hg; cases hg
      · simp only [not_forall, not_not] at hx
        obtain ⟨p, hp, rfl⟩ := hx
        rw [h1.seen p hp] at hg
        cases hg
        exact ⟨p, hp, rfl, by simp⟩
    · rintro ⟨p, hp, rfl, rfl⟩
      exact ⟨(toString p, UInt64.ofNat _), (mapGet_mem h1.keys _ _).mpr (h1.seen p hp), by simp⟩

/-! ## The index -/

theorem kindName_eq (n : Nat) : (Main.kindOf n).label = kindName n := by
  unfold Main.kindOf kindName
  repeat' split
  all_goals rfl

theorem entry_meaning (i : Nat) (d : Pgn) : meaning (entryOut (Main.entryFor i d)) = entryJson i d := by
  have e : bs "/api/v1/messages/" ++ bs (toString i) = bs ("/api/v1/messages/" ++ toString i) := (bs_append _ _).symm
  unfold entryOut Main.entryFor entryJson
  simp only [meaning, fields, chars_bs, toString_nat_bytes, e, kindName_eq, jnat, jstr]

theorem entry_numbers (e : IndexEntry) : Numbers (entryOut e) := by
  unfold entryOut
  simp only [Numbers, NumbersO]
  exact ⟨isNumber_nat _, trivial, trivial, trivial, isNumber_nat _, isNumber_nat _, trivial, trivial, trivial⟩

/-- **C105** (index): the reply to every query is one JSON text: an array with the entry of each definition asked for,
in order, or `null` if there is none. -/
theorem C105_index (newer : Bool) (tbl : List Pgn) (fold : String → String → Bool) (category typ : String) :
    ∃ b, indexReply newer tbl fold category typ = .ok b ∧
      ∀ j, Reads b j ↔ j =
        let found := (Main.numbered tbl).filter (fun e => Main.wanted fold category typ e.2)
        if found = [] then .null else .arr (found.map (fun e => entryJson e.1 e.2)) := by
  refine ⟨_, by unfold indexReply; rw [Main.C70_index]; rfl, fun j => ?_⟩
  generalize (Main.numbered tbl).filter (fun e => Main.wanted fold category typ e.2) = l
  rw [reads_indent_iff]
  · unfold indexOut
    cases l with
    | nil => simp [meaning]
    | cons x l =>
      simp only [List.map_cons, List.isEmpty_cons, Bool.false_eq_true, if_false, reduceCtorEq, meaning, meanings_eq,
        entry_meaning, List.map_map]
      have : meaning ∘ (entryOut ∘ fun e : Nat × Pgn => Main.entryFor e.1 e.2) = fun e => entryJson e.1 e.2 := by
        funext e; exact entry_meaning e.1 e.2
      simp only [Function.comp_assoc, this]
  · unfold indexOut
    split
    · trivial
    · unfold Numbers
      rw [numbersL_iff]
      intro o ho
      obtain ⟨e, _, rfl⟩ := List.mem_map.mp ho
      exact entry_numbers e

/-! ## Details -/

theorem res_number {scale : String → List Byte} (hs : ∀ s, IsNumber (scale s)) (r : Res) : IsNumber (resText scale r) := by
  cases r
  case scale s => exact hs s
  all_goals
    simp only [resText]
    unfold IsNumber
    decide +kernel

theorem res_json (scale : String → List Byte) (r : Res) : ResJson scale r (.num (resText scale r)) := by
  cases r
  case scale s => exact Or.inr ⟨s, rfl, rfl⟩
  all_goals exact Or.inl ⟨_, rfl, rfl⟩

theorem lookupOut_numbers (l : List (Nat × String)) : Numbers (lookupOut l) := by
  unfold lookupOut
  split
  · trivial
  · unfold Numbers
    rw [numbersL_iff]
    intro o ho
    obtain ⟨e, _, rfl⟩ := List.mem_map.mp ho
    simp only [Numbers, NumbersO]
    exact ⟨trivial, isNumber_nat _, trivial⟩

theorem lookupOut_json {l t : List (Nat × String)} (hp : l.Perm t) (ht : t ≠ []) :
    TableJson t (meaning (lookupOut l)) := by
  refine ⟨l, hp, ?_⟩
  have hl : l ≠ [] := fun e => ht (by rw [e] at hp; exact hp.nil_eq.symm)
  unfold lookupOut
  rw [if_neg (by simpa using hl)]
  simp only [meaning, meanings_eq, List.map_map]
  congr 1
  apply List.map_congr_left
  intro e _
  simp only [Function.comp_apply, meaning, fields, chars_bs, jnat, jstr]

/-- The names of tables in a definition are those of tables. -/
def UnitsKnown (u : Units) : Bool :=
  match u with
  | .lookup name => Lookups.tables.any (fun e => e.1 == name)
  | .subLookup name => name == "lookupDeviceFunction"
  | _ => true

theorem tables_nonempty : ∀ e ∈ Lookups.tables, e.2 ≠ [] := by decide +kernel
theorem rows_nonempty : ∀ e ∈ Lookups.lookupDeviceFunction, e.2 ≠ [] := by decide +kernel

theorem units_json {ord : MapOrder} (ho : ∀ k s l, (ord k s l).Perm l) (k : Nat) {u : Units} (hu : UnitsKnown u = true) :
    UnitsJson u (meaning (unitsOut ord k u)) := by
  cases u with
  | nil => exact .nil
  | int n => exact .int n
  | empty =>
    have : meaning (unitsOut ord k .empty) = jstr "" := by simp only [unitsOut, meaning, jstr]; rfl
    rw [this]; exact .empty
  | text s => unfold unitsOut; simp only [meaning, chars_bs]; exact .text s
  | must n => unfold unitsOut; simp only [meaning, chars_bs]; exact .must n
  | lookup name =>
    obtain ⟨e, he, hname⟩ := List.any_eq_true.mp hu
    have hname : e.1 = name := by simpa using hname
    obtain ⟨t, ht⟩ : ∃ t, Lookups.tables.find? (fun e => e.1 = name) = some (name, t) := by
      cases hf : Lookups.tables.find? (fun e => e.1 = name) with
      | none =>
        exact absurd hname (by simpa using List.find?_eq_none.mp hf e he)
      | some x =>
        have := List.find?_some hf
        simp only [decide_eq_true_eq] at this
        exact ⟨x.2, by rw [← this]⟩
    have hmem := List.mem_of_find?_eq_some ht
    have e : unitsOut ord k (.lookup name) = lookupOut (ord k 0 t) := by
      simp only [unitsOut, tableOf, ht, Option.map_some, Option.getD_some]
    rw [e]
    exact .lookup hmem (lookupOut_json (ho _ _ _) (tables_nonempty _ hmem))
  | subLookup name =>
    have hname : name = "lookupDeviceFunction" := by simpa [UnitsKnown] using hu
    subst hname
    have e : unitsOut ord k (.subLookup "lookupDeviceFunction") = .obj
        ((Lookups.lookupDeviceFunction.insertionSort (fun a b => toString a.1 ≤ toString b.1)).map
          (fun e => (bs (toString e.1), lookupOut (ord k e.1 e.2)))) := rfl
    rw [e]
    simp only [meaning, fields_eq, List.map_map]
    have hp := List.perm_insertionSort (fun a b => toString a.1 ≤ toString b.1) Lookups.lookupDeviceFunction
    refine .sub hp ?_
    rw [List.forall₂_map_right_iff]
    have hne : ∀ e ∈ Lookups.lookupDeviceFunction.insertionSort (fun a b => toString a.1 ≤ toString b.1), e.2 ≠ [] :=
      fun e he => rows_nonempty e (hp.mem_iff.mp he)
    generalize Lookups.lookupDeviceFunction.insertionSort (fun a b => toString a.1 ≤ toString b.1) = rows at hne ⊢
    induction rows with
    | nil => exact .nil
    | cons e rows ih =>
      refine .cons ⟨chars_bs _, lookupOut_json (ho _ _ _) (hne e (by simp))⟩ (ih fun x hx => hne x (List.mem_cons_of_mem _ hx))

theorem units_numbers (ord : MapOrder) (k : Nat) (u : Units) : Numbers (unitsOut ord k u) := by
  cases u with
  | int n => unfold unitsOut; simpa [Numbers] using isNumber_int n
  | lookup name => exact lookupOut_numbers _
  | subLookup name =>
    unfold unitsOut Numbers
    rw [numbersO_iff]
    intro e he
    obtain ⟨x, _, rfl⟩ := List.mem_map.mp he
    exact lookupOut_numbers _
  | _ => trivial

theorem pgn_numbers {scale : String → List Byte} (hs : ∀ s, IsNumber (scale s)) (ord : MapOrder) (d : Pgn) :
    Numbers (pgnOut scale ord d) := by
  have hf : ∀ (l : List Field) (k : Nat), NumbersL (fieldsOut scale ord k l) := by
    intro l
    induction l with
    | nil => intro k; trivial
    | cons f l ih =>
      intro k
      unfold fieldsOut NumbersL
      refine ⟨?_, ih _⟩
      unfold fieldOut
      simp only [Numbers, NumbersO]
      exact ⟨trivial, isNumber_nat _, res_number hs _, trivial, units_numbers _ _ _, trivial, trivial, isNumber_int _, trivial⟩
  unfold pgnOut
  simp only [Numbers, NumbersO]
  exact ⟨trivial, trivial, isNumber_nat _, trivial, isNumber_nat _, isNumber_nat _, hf _ _, trivial⟩

theorem pgn_json {scale : String → List Byte} {ord : MapOrder} (ho : ∀ k s l, (ord k s l).Perm l) {d : Pgn}
    (hd : ∀ f ∈ d.fieldList, UnitsKnown f.units = true) : PgnJson scale d (meaning (pgnOut scale ord d)) := by
  have hf : ∀ (l : List Field) (k : Nat), (∀ f ∈ l, UnitsKnown f.units = true) →
      List.Forall₂ (FieldJson scale) l (meanings (fieldsOut scale ord k l)) := by
    intro l
    induction l with
    | nil => intro k _; exact .nil
    | cons f l ih =>
      intro k hk
      unfold fieldsOut meanings
      refine .cons ⟨_, _, res_json scale f.res, units_json ho k (hk f (by simp)), ?_⟩
        (ih _ fun x hx => hk x (List.mem_cons_of_mem _ hx))
      unfold fieldOut
      simp only [meaning, fields, chars_bs, jnat, jstr]
  refine ⟨_, hf d.fieldList 0 hd, ?_⟩
  unfold pgnOut
  simp only [meaning, fields, chars_bs, jnat, jstr]

theorem shipped_known : ∀ d ∈ Table.pgnList, ∀ f ∈ d.fieldList, UnitsKnown f.units = true := by decide +kernel

theorem details_mem {tbl : List Pgn} {key : Str} {d : Pgn} {x : Bool} (h : Main.messageDetails tbl key = .ok (d, x)) :
    d ∈ tbl := by
  unfold Main.messageDetails at h
  simp only [bind, Except.bind, pure, Except.pure] at h
  split at h
  · cases hf : first tbl ((Main.parseInt32 (Main.splitDot key).1).toNat % 2 ^ 32) with
    | error e => rw [hf] at h; cases h
    | ok r =>
      rw [hf] at h
      simp only at h
      cases hi : tbl[r.1]? with
      | none => rw [hi] at h; cases h
      | some q =>
        rw [hi] at h
        cases h
        exact List.mem_of_getElem? hi
  · cases hg : goIndex tbl (Main.parseInt32 (Main.splitDot key).1) with
    | error e => rw [hg] at h; cases h
    | ok q =>
      rw [hg] at h
      cases h
      unfold goIndex at hg
      split at hg
      · cases hi : tbl[(Main.parseInt32 (Main.splitDot key).1).toNat]? with
        | none => rw [hi] at hg; cases hg
        | some q' => rw [hi] at hg; cases hg; exact List.mem_of_getElem? hi
      · cases hg

/-- **C105** (details): whenever the reply is in JSON it is one JSON text, the whole definition: every field, and
every entry of every table of names once, whatever the order in which the maps are walked. -/
theorem C105_details (newer : Bool) {scale : String → List Byte} (hs : ∀ s, IsNumber (scale s)) {ord : MapOrder}
    (ho : ∀ k s l, (ord k s l).Perm l) {key : Str} {d : Pgn}
    (h : Main.messageDetails Table.pgnList key = .ok (d, false)) :
    ∃ b j, detailsReply newer scale ord Table.pgnList key = .ok (some b) ∧ PgnJson scale d j ∧ ∀ j', Reads b j' ↔ j' = j := by
  have hd : d ∈ Table.pgnList := by
    exact details_mem h
  refine ⟨_, _, by unfold detailsReply; rw [h]; rfl, pgn_json ho (shipped_known d hd), fun j' => ?_⟩
  exact reads_indent_iff newer (pgn_numbers hs ord d) j'

/-! ## UUID -/

theorem chars_hexes (l : List Byte) : unhex (chars (hexes l)) = some l := by
  have key : ∀ b : Fin 256, ∃ a c : Char, hexes [UInt8.ofNat b.val] = ascii [a, c] ∧ a.toNat < 128 ∧ c.toNat < 128 ∧
      unhex [a, c] = some [UInt8.ofNat b.val] := by
    intro b
    refine ⟨Char.ofNat (hexUp (b.val / 16)).toNat, Char.ofNat (hexUp (b.val % 16)).toNat, ?_⟩
    revert b
    decide +kernel
  have step : ∀ l, ∃ cs, hexes l = ascii cs ∧ (∀ c ∈ cs, c.toNat < 128) ∧ unhex cs = some l := by
    intro l
    induction l with
    | nil => exact ⟨[], rfl, by simp, rfl⟩
    | cons b l ih =>
      obtain ⟨cs, h1, h2, h3⟩ := ih
      obtain ⟨a, c, g1, g2, g3, g4⟩ := key ⟨b.toNat, b.toNat_lt⟩
      simp only [UInt8.ofNat_toNat] at g1 g4
      refine ⟨a :: c :: cs, ?_, ?_, ?_⟩
      · have : hexes (b :: l) = hexes [b] ++ hexes l := by simp [hexes]
        rw [this, g1, h1]; simp [ascii]
      · intro x hx
        rcases List.mem_cons.mp hx with rfl | hx
        · exact g2
        · rcases List.mem_cons.mp hx with rfl | hx
          · exact g3
          · exact h2 x hx
      · simp only [unhex] at g4 ⊢
        rw [h3]
        cases ha : List.idxOf? a "0123456789ABCDEF".toList with
        | none => rw [ha] at g4; cases g4
        | some x =>
          cases hc : List.idxOf? c "0123456789ABCDEF".toList with
          | none => rw [ha, hc] at g4; cases g4
          | some y =>
            rw [ha, hc] at g4
            simp only [Option.some.injEq, List.cons.injEq, and_true] at g4
            simp only [g4]
  obtain ⟨cs, h1, h2, h3⟩ := step l
  rw [h1, chars_ascii h2, h3]

theorem length_hexes (l : List Byte) : (hexes l).length = 2 * l.length := by
  induction l with
  | nil => rfl
  | cons b l ih => simp [hexes] at ih ⊢; omega

/-- **C105** (UUID): the reply is one JSON text, an object with the five groups of hexadecimal digits of the UUID,
of 4, 2, 2, 2 and 6 bytes. -/
theorem C105_uuid (newer : Bool) {u : List Byte} (hu : u.length = 16) :
    ∃ g : List (List Char), (∃ parts : List (List Byte), parts.map List.length = [4, 2, 2, 2, 6] ∧ parts.flatten = u ∧
        g.map unhex = parts.map some) ∧
      ∀ j, Reads (uuidReply newer u) j ↔ j = .obj [("uuid".toList, .arr (g.map .str))] := by
  refine ⟨[u.take 4, (u.drop 4).take 2, (u.drop 6).take 2, (u.drop 8).take 2, u.drop 10].map (fun l => chars (hexes l)),
    ⟨[u.take 4, (u.drop 4).take 2, (u.drop 6).take 2, (u.drop 8).take 2, u.drop 10], ?_, ?_, ?_⟩, fun j => ?_⟩
  · simp [hu]
  · have h6 : u.drop 6 = (u.drop 4).drop 2 := by simp
    have h8 : u.drop 8 = ((u.drop 4).drop 2).drop 2 := by simp
    have h10 : u.drop 10 = (((u.drop 4).drop 2).drop 2).drop 2 := by simp
    rw [h6, h8, h10]
    simp only [List.flatten_cons, List.flatten_nil, List.append_nil, List.take_append_drop]
  · rw [List.map_map]
    apply List.map_congr_left
    intro l _
    exact chars_hexes l
  · unfold uuidReply
    rw [reads_print_iff]
    · simp [meaning, fields, meanings, chars_bs]
    · simp [Numbers, NumbersO, NumbersL]

/-! ## Installation -/

theorem bare_character {c : Char} (h : c ≠ '"' ∧ c ≠ '\\' ∧ 0x20 ≤ c.toNat) (r : List Byte) :
    ∃ b l, String.utf8EncodeChar c = b :: l ∧ b ≠ 34 ∧ character (b :: (l ++ r)) = some (c, r) := by
  have hf := firstChar_encode c r
  have hlen := encode_length c
  have hd : (String.utf8EncodeChar c ++ r).drop c.utf8Size = r := by
    rw [← hlen, List.drop_left]
  cases he : String.utf8EncodeChar c with
  | nil => rw [he] at hlen; have := c.utf8Size_pos; simp at hlen; omega
  | cons b l =>
    rw [he] at hf hd
    have hsmall : b.toNat < 0x80 → Char.ofNat b.toNat = c := by
      intro hb
      have := (firstChar_ascii hb (l ++ r)).1
      rw [List.cons_append] at hf
      rw [hf] at this
      exact (Option.some.inj this).symm
    have h34 : b ≠ 34 := by
      rintro rfl
      exact h.1 ((hsmall (by decide)).symm.trans (by decide))
    have h92 : b ≠ 92 := by
      rintro rfl
      exact h.2.1 ((hsmall (by decide)).symm.trans (by decide))
    have h20 : ¬ b.toNat < 0x20 := by
      intro hb
      have e := hsmall (by omega)
      have : c.toNat = b.toNat := by
        rw [← e]
        have key : ∀ n : Fin 32, (Char.ofNat n.val).toNat = n.val := by decide
        exact key ⟨b.toNat, hb⟩
      omega
    refine ⟨b, l, rfl, h34, ?_⟩
    unfold character
    simp only
    rw [List.cons_append] at hf hd
    rw [if_neg h92, if_neg h20, hf]
    simp only [hd]

theorem bare_tail {cs : List Char} (h : Bare cs) (r : List Byte) :
    ∃ n, stringTail n (cs.flatMap String.utf8EncodeChar ++ 34 :: r) = some (cs, r) := by
  induction cs with
  | nil => exact ⟨1, by simp [stringTail]⟩
  | cons c cs ih =>
    obtain ⟨n, hn⟩ := ih (fun x hx => h x (List.mem_cons_of_mem _ hx))
    obtain ⟨b, l, he, hb, hc⟩ := bare_character (h c (by simp)) (cs.flatMap String.utf8EncodeChar ++ 34 :: r)
    refine ⟨n + 1, ?_⟩
    rw [List.flatMap_cons, he]
    simp only [List.cons_append, List.append_assoc]
    rw [stringTail]
    rw [if_neg hb, hc]
    simp only [hn]

/-- A member whose key and value are bare strings. -/
theorem bare_member {k v : List Char} (hk : Bare k) (hv : Bare v) (r : List Byte) :
    ∃ n, members (n + 1) (34 :: (k.flatMap String.utf8EncodeChar ++ 34 :: 58 :: 34 ::
        (v.flatMap String.utf8EncodeChar ++ 34 :: 125 :: r))) = some ([(k, .str v)], r) := by
  obtain ⟨a, ha⟩ := bare_tail hk (58 :: 34 :: (v.flatMap String.utf8EncodeChar ++ 34 :: 125 :: r))
  obtain ⟨b, hb⟩ := bare_tail hv (125 :: r)
  refine ⟨max a b + 1, ?_⟩
  rw [members, skip_of (by decide)]
  simp only
  rw [if_pos (by trivial), stringTail_mono (show a ≤ max a b + 1 by omega) ha]
  simp only
  rw [skip_of (by decide)]
  simp only
  rw [if_pos (by trivial), value, skip_of (by decide)]
  simp only
  rw [if_pos (by trivial), stringTail_mono (show b ≤ max a b by omega) hb]
  simp only
  rw [skip_of (by decide)]
  simp only
  rw [if_pos (by trivial)]

theorem bare_members {k v : List Char} (hk : Bare k) (hv : Bare v) {t : List Byte} {l : List (List Char × Json)} {r : List Byte}
    (ht : ∃ n, members n t = some (l, r)) :
    ∃ n, members (n + 1) (34 :: (k.flatMap String.utf8EncodeChar ++ 34 :: 58 :: 34 ::
        (v.flatMap String.utf8EncodeChar ++ 34 :: 44 :: t))) = some ((k, .str v) :: l, r) := by
  obtain ⟨a, ha⟩ := bare_tail hk (58 :: 34 :: (v.flatMap String.utf8EncodeChar ++ 34 :: 44 :: t))
  obtain ⟨b, hb⟩ := bare_tail hv (44 :: t)
  obtain ⟨c, hc⟩ := ht
  refine ⟨max a (max b c) + 1, ?_⟩
  rw [members, skip_of (by decide)]
  simp only
  rw [if_pos (by trivial), stringTail_mono (show a ≤ max a (max b c) + 1 by omega) ha]
  simp only
  rw [skip_of (by decide)]
  simp only
  rw [if_pos (by trivial), value, skip_of (by decide)]
  simp only
  rw [if_pos (by trivial), stringTail_mono (show b ≤ max a (max b c) by omega) hb]
  simp only
  rw [skip_of (by decide)]
  simp only
  rw [if_neg (by decide), if_pos (by trivial), members_mono (show c ≤ max a (max b c) + 1 by omega) hc]

theorem reads_object {t : List Byte} {l : List (List Char × Json)} (h : ∃ n, members n (34 :: t) = some (l, [])) :
    ∀ j, Reads (123 :: 34 :: t) j ↔ j = .obj l := by
  obtain ⟨n, hn⟩ := h
  have : Reads (123 :: 34 :: t) (.obj l) := by
    refine ⟨n + 1, [], ?_, rfl⟩
    rw [value, skip_of (by decide)]
    simp only
    rw [if_neg (by decide), if_neg (by decide), if_pos (by trivial), skip_of (by decide)]
    simp only
    rw [if_neg (by decide), hn]
  exact fun j => ⟨fun h => reads_unique h this, fun h => h ▸ this⟩

theorem bare_of {s : String} (h : s.toList.all (fun c => c ≠ '"' ∧ c ≠ '\\' ∧ 0x20 ≤ c.toNat) = true) : Bare s.toList := by
  intro c hc
  simpa using List.all_eq_true.mp h c hc

/-- **C105** (installation): the reply is one JSON text with the error or the address of the package, if that text is
UTF-8 without quotation marks, backslashes and control characters. -/
theorem C105_install_partial {cs : List Char} (h : Bare cs) :
    (∀ j, Reads (installReply (.error (cs.flatMap String.utf8EncodeChar))) j ↔
      j = .obj [("result".toList, jstr "error"), ("message".toList, .str cs)]) ∧
    (∀ j, Reads (installReply (.ok (cs.flatMap String.utf8EncodeChar))) j ↔
      j = .obj [("result".toList, jstr "ok"), ("url".toList, .str cs), ("dir".toList, jstr "./node_modules")]) := by
  constructor
  · have e : installReply (.error (cs.flatMap String.utf8EncodeChar)) = 123 :: 34 ::
        ("result".toList.flatMap String.utf8EncodeChar ++ 34 :: 58 :: 34 :: ("error".toList.flatMap String.utf8EncodeChar ++
          34 :: 44 :: (34 :: ("message".toList.flatMap String.utf8EncodeChar ++ 34 :: 58 :: 34 ::
            (cs.flatMap String.utf8EncodeChar ++ 34 :: 125 :: []))))) := by
      have e1 : bs "{\"result\":\"error\",\"message\":\"" = 123 :: 34 ::
        ("result".toList.flatMap String.utf8EncodeChar ++ 34 :: 58 :: 34 :: ("error".toList.flatMap String.utf8EncodeChar ++
          34 :: 44 :: (34 :: ("message".toList.flatMap String.utf8EncodeChar ++ [34, 58, 34])))) := by decide +kernel
      have e2 : bs "\"}" = [34, 125] := by decide +kernel
      simp only [installReply, e1, e2]
      simp only [List.append_assoc, List.cons_append, List.nil_append]
    rw [e]
    obtain ⟨n, hn⟩ := bare_member (bare_of (s := "message") (by decide)) h []
    obtain ⟨m, hm⟩ := bare_members (bare_of (s := "result") (by decide)) (bare_of (s := "error") (by decide)) ⟨_, hn⟩
    exact reads_object ⟨_, hm⟩
  · have e : installReply (.ok (cs.flatMap String.utf8EncodeChar)) = 123 :: 34 ::
        ("result".toList.flatMap String.utf8EncodeChar ++ 34 :: 58 :: 34 :: ("ok".toList.flatMap String.utf8EncodeChar ++
          34 :: 44 :: (34 :: ("url".toList.flatMap String.utf8EncodeChar ++ 34 :: 58 :: 34 ::
            (cs.flatMap String.utf8EncodeChar ++ 34 :: 44 :: (34 :: ("dir".toList.flatMap String.utf8EncodeChar ++ 34 :: 58 :: 34 ::
            ("./node_modules".toList.flatMap String.utf8EncodeChar ++ 34 :: 125 :: [])))))))) := by
      have e1 : bs "{\"result\":\"ok\",\"url\":\"" = 123 :: 34 ::
        ("result".toList.flatMap String.utf8EncodeChar ++ 34 :: 58 :: 34 :: ("ok".toList.flatMap String.utf8EncodeChar ++
          34 :: 44 :: (34 :: ("url".toList.flatMap String.utf8EncodeChar ++ [34, 58, 34])))) := by decide +kernel
      have e2 : bs "\",\"dir\":\"" = 34 :: 44 :: 34 :: ("dir".toList.flatMap String.utf8EncodeChar ++ [34, 58, 34]) := by
        decide +kernel
      have e3 : bs "./node_modules" = "./node_modules".toList.flatMap String.utf8EncodeChar := bs_eq _
      have e4 : bs "\"}" = [34, 125] := by decide +kernel
      simp only [installReply, e1, e2, e3, e4]
      simp only [List.append_assoc, List.cons_append, List.nil_append]
    rw [e]
    obtain ⟨n, hn⟩ := bare_member (bare_of (s := "dir") (by decide)) (bare_of (s := "./node_modules") (by decide)) []
    obtain ⟨m, hm⟩ := bare_members (bare_of (s := "url") (by decide)) h ⟨_, hn⟩
    obtain ⟨k, hk⟩ := bare_members (bare_of (s := "result") (by decide)) (bare_of (s := "ok") (by decide)) ⟨_, hm⟩
    exact reads_object ⟨_, hk⟩

/-- **C105** is false of an installation: an error with a quotation mark gives a reply that is not JSON, and a name with
one can add members of its own. -/
theorem C105_install_false :
    (∀ j, ¬ Reads (installReply (.error (bs "cannot find \"yarn\""))) j) ∧
    Reads (installReply (.ok (bs "/apps/a\",\"url\":\"/apps/b"))) (.obj [("result".toList, jstr "ok"),
      ("url".toList, jstr "/apps/a"), ("url".toList, jstr "/apps/b"), ("dir".toList, jstr "./node_modules")]) := by
  constructor
  · intro j h
    rw [reads_iff] at h
    have : (read (installReply (.error (bs "cannot find \"yarn\"")))).isNone = true := by decide +kernel
    rw [h] at this; cases this
  · rw [reads_iff]
    rfl

/-! ## Examples -/

/-- A map may come up in any order. -/
example : ∀ k s l, ((fun _ _ l => l.reverse : MapOrder) k s l).Perm l := fun _ _ l => List.reverse_perm l

/-- The request as /signalk/v1/api/messages/2 shows it. -/
example : ((detailsReply false (fun _ => [48, 46, 53]) (fun _ _ l => l) Table.pgnList (bs "2")).toOption.bind id).map
      (fun b => String.ofList (chars b)) =
    some ("{\n  \"Description\": \"ISO Request\",\n  \"Category\": \"Mandatory\",\n  \"Pgn\": 59904,\n" ++
      "  \"IsKnown\": true,\n  \"Size\": 3,\n  \"RepeatingFields\": 0,\n  \"FieldList\": [\n    {\n" ++
      "      \"Name\": \"PGN\",\n      \"Size\": 24,\n      \"Resolution\": -8,\n      \"Signed\": false,\n" ++
      "      \"Units\": null,\n      \"Description\": \"\",\n      \"SignalkPath\": \"\",\n      \"Offset\": 0\n" ++
      "    }\n  ]\n}") := by decide +kernel

/-- It is a reply `C105_details` speaks of, and so is one with a table of tables. -/
example : Main.messageDetails Table.pgnList (bs "2") = .ok (Table.p2, false) ∧
    Main.messageDetails Table.pgnList (bs "3") = .ok (Table.p3, false) := by decide +kernel

example : String.ofList (chars (print false (countersOut [("127250", 3), ("9", 1), ("60928", 2)]))) =
    "{\"127250\":3,\"60928\":2,\"9\":1}" := by decide +kernel

example : String.ofList (chars (uuidReply false [0xc0, 0xd7, 0x93, 0x34, 0x4e, 0x25, 0x42, 0x45, 0x88, 0x92, 0x54, 0xe8, 0xcc,
    0xc8, 2, 0x1d])) = "{\"uuid\":[\"C0D79334\",\"4E25\",\"4245\",\"8892\",\"54E8CCC8021D\"]}" := by decide +kernel

example : ((indexReply false [Table.p2] (fun a b => a == b) "Mandatory" "s").toOption.map (fun b => String.ofList (chars b)),
    (indexReply false [Table.p2] (fun a b => a == b) "Mandatory" "f").toOption.map (fun b => String.ofList (chars b))) =
    (some ("[\n  {\n    \"Pgn\": 59904,\n    \"Name\": \"ISO Request\",\n    \"Category\": \"Mandatory\",\n" ++
      "    \"Verified\": true,\n    \"Size\": 3,\n    \"RepeatingFields\": 0,\n    \"Type\": \"Single Frame\",\n" ++
      "    \"@Details\": \"/api/v1/messages/0\"\n  }\n]"), some "null") := by decide +kernel

end Argo.Json
