import Verif.Log.Forged
import Verif.Main.Startup
import Verif.Main.Values

set_option autoImplicit false

/-!
# The log as a whole (C128): what the program writes to the standard error, and what a reader finds in it
-/

namespace Argo.Log

open Argo Argo.Main
open Argo.Nmea2k (Val Pgn DataMap Parsed ParsePacket)
open Argo.Nmea2k.Table (pgnList)
open Argo.Signalk (Str bs Time Stamp)
open Argo.Json (pad ascii)
open Argo.Config (Conf Doc Setting Scalar Interface)

/-! ## Model -/

/-- go-logging `Level.String`. -/
def levelName : Level → Str
  | .critical => bs "CRITICAL"
  | .error => bs "ERROR"
  | .warning => bs "WARNING"
  | .notice => bs "NOTICE"
  | .info => bs "INFO"
  | .debug => bs "DEBUG"

/-- go-logging `colors`: the escape sequence of `%{color}`; there is none for INFO. -/
def color : Level → Str
  | .critical => 27 :: bs "[35m"
  | .error => 27 :: bs "[31m"
  | .warning => 27 :: bs "[33m"
  | .notice => 27 :: bs "[32m"
  | .info => []
  | .debug => 27 :: bs "[36m"

/-- `%{color:reset}` -/
def reset : Str := 27 :: bs "[0m"

/-- go-logging `Record`: `time` with its nanoseconds. -/
structure Record where
  level : Level
  time : Time × ℕ
  id : ℕ
  text : Str

/-- The layout `15:04:05.000`. -/
def clockText (t : Time × ℕ) : Str :=
  ascii (pad 2 t.1.stamp.hour.toNat ++ ':' :: pad 2 t.1.stamp.minute.toNat ++ ':' :: pad 2 t.1.stamp.second.toNat ++
    '.' :: pad 3 (t.2 / 10 ^ 6))

/-- argo.go:54-56 `logFormat`. -/
def Record.format (r : Record) : Str :=
  color r.level ++ clockText r.time ++ bs " ▶ " ++ levelName r.level ++ bs " " ++ ascii (pad 4 r.id) ++ bs " " ++ r.text ++ reset

/-- go-logging `LogBackend.Log` with `log.Logger.Output`: the line and a line feed (the line never ends in one); records are written
one after the other. -/
def Record.bytes (r : Record) : Str := r.format ++ [10]

/-- can.go:65-69 `RawMessage.Print`: `% x` separates the bytes by blanks; the layout is that of can.go:27. -/
def headerText (m : RawMessage) (at_ : Time × ℕ) : Str :=
  receipt '-' at_ ++ bs " " ++ natText m.priority.toNat ++ bs " " ++ natText m.source.toNat ++ bs " " ++
    natText m.destination.toNat ++ bs " " ++ natText m.pgn ++ bs " " ++ natText m.length.toNat ++ bs ": " ++
    ([32] : Str).intercalate (m.data.vis.map fun b => ascii [Nat.digitChar (b.toNat / 16), Nat.digitChar (b.toNat % 16)])

/-- argo.go:163-169: what the loop logs of a message received at `at_`. -/
def logged (l : LogTo) (here : Place) (o : Opts) (m : Message Body) (at_ : Time × ℕ) : GoM (List (Level × Str)) :=
  if shown o m.header then do
    let t ← printText here pgnList (parsedOf m) at_ l.verbose
    pure ((if l.shows .debug then [(.debug, headerText m.header at_)] else []) ++ (if l.shows .info then [(.info, t)] else []))
  else pure []

/-- fmt, verb `%v`, of a setting. -/
def scalarText : Scalar → Str
  | .str s => s
  | .int n => intText n
  | .bool b => bs (if b then "true" else "false")

/-- fmt, verb `%v`, of a struct of settings. -/
def groupText (c : Conf) (l : List Setting) : Str := [123] ++ ([32] : Str).intercalate (l.map fun s => scalarText (c.val s)) ++ [125]

/-- fmt, verb `%v`, of `TomlConfig`, config.go:30-81. -/
def confText (c : Conf) : Str :=
  [123] ++ scalarText (c.val .logLevel) ++ [32] ++ scalarText (c.val .mapFile) ++ [32] ++
  groupText c [.enableWebsockets, .serverUseTls, .serverPort, .listenOn, .assetPath, .certificate, .publicKeyFile, .privateKeyFile] ++
  [32] ++ groupText c [.mqttEnable, .mqttUseTls, .mqttPort, .mqttHost, .clientId, .username, .password, .channel] ++ [32] ++
  bs "map[" ++ ([32] : Str).intercalate (c.interfaces.map fun e =>
    e.1 ++ [58, 123] ++ e.2.path ++ [32] ++ e.2.type ++ [32] ++ natText e.2.speed ++ [125]) ++ bs "]" ++ [32] ++
  groupText c [.vesselName, .manufacturer, .model, .year, .mmsi, .callsign, .registration, .uuid, .uuid0, .uuid1, .uuid2, .uuid3,
    .uuid4] ++ [125]

/-- ui_server.go:104 `log.Notice("\n%v", data)`: the arguments as by `fmt.Sprintln` without the line feed at the end. -/
def noticeText (c : Conf) : Str := 10 :: bs "%v " ++ confText c

/-- ui_server.go:99-104: what a POST of settings logs, if they can be decoded. -/
def posted (d : Doc) : Option (Level × Str) := (Config.decode (fun _ => true) d Config.settings).map fun c => (.notice, noticeText c)

/-! ## Specification: a reader of the log -/

def digit (b : Byte) : Bool := decide (48 ≤ b.toNat) && decide (b.toNat ≤ 57)

/-- `dd:dd:dd.ddd` -/
def clockLike : Str → Bool
  | [a, b, c, d, e, f, g, h, i, j, k, l] =>
    digit a && digit b && c == 58 && digit d && digit e && f == 58 && digit g && digit h && i == 46 && digit j && digit k && digit l
  | _ => false

/-- The text of a line marked INFO: a time, the mark, a number of four digits or more, the text and the end of the colour. -/
def infoLine (line : Str) : Option Str :=
  if clockLike (line.take 12) && (bs " ▶ INFO ").isPrefixOf (line.drop 12) then
    let rest := (line.drop 12).drop (bs " ▶ INFO ").length
    if 4 ≤ (rest.takeWhile digit).length then
      match rest.dropWhile digit with
      | 32 :: body => if reset.isSuffixOf body then some (body.take (body.length - 4)) else none
      | _ => none
    else none
  else none

/-- The lines of a text, at line feeds. -/
def lines : Str → List Str
  | [] => [[]]
  | b :: s => if b = 10 then [] :: lines s else
    match lines s with
    | l :: ls => (b :: l) :: ls
    | [] => [[b]]

/-- What a reader finds in the lines marked INFO. -/
def infoTexts (log : Str) : List Str := (lines log).filterMap infoLine

/-- A record that is not marked INFO and whose text keeps to its line or is that of posted settings without line feeds. -/
def Other (r : Record) : Prop :=
  r.level ≠ .info ∧ ((10 : Byte) ∉ r.text ∨ ∃ c, r.text = noticeText c ∧ (10 : Byte) ∉ confText c)

/-- The messages the loop has written to the log so far: the first ones of those taken that pass the options, as many as their headers
show. -/
def Wrote {β : Type} (o : Opts) (s : Sys Body β) (ms : List (Message Body)) : Prop :=
  ms <+: (s.consumed.map Prod.snd).filter (fun m => shown o m.header) ∧ ms.map Message.header = s.emitted.filterMap Effect.logged?

/-- A log with its records in the order they are written; those of the loop (`true`) are what it logs of the messages `ms`, received at
`ats`.  The others come from the goroutines of the interfaces and servers. -/
structure Written (l : LogTo) (here : Place) (o : Opts) (ms : List (Message Body)) (ats : List (Time × ℕ)) (J : List (Bool × Record)) :
    Prop where
  loop : ∃ xs, List.Forall₂ (fun e x => logged l here o e.1 e.2 = .ok x) (ms.zip ats) xs ∧
    ((J.filter Prod.fst).map fun r => (r.2.level, r.2.text)) = xs.flatten
  length : ats.length = ms.length
  times : ∀ r ∈ J, r.2.time.2 < 10 ^ 9
  others : ∀ r ∈ J, r.1 = false → Other r.2

/-- No text of the bus has a line feed. -/
def NoLineFeed (p : Parsed) : Prop := ∀ k b, p.data.get k = .chars b → (10 : Byte) ∉ b

/-- No text of the bus has a semicolon. -/
def NoSemicolon (p : Parsed) : Prop := ∀ k b, p.data.get k = .chars b → (59 : Byte) ∉ b

/-! ## Proofs -/

theorem lines_append {x : Str} (h : (10 : Byte) ∉ x) (y : Str) : lines (x ++ 10 :: y) = x :: lines y := by
  induction x with
  | nil => simp [lines]
  | cons b x ih =>
    simp only [List.mem_cons, not_or] at h
    rw [List.cons_append, lines, if_neg (fun e => h.1 e.symm), ih h.2]

theorem infoTexts_append {x : Str} (h : (10 : Byte) ∉ x) (y : Str) :
    infoTexts (x ++ 10 :: y) = (infoLine x).toList ++ infoTexts y := by
  unfold infoTexts
  rw [lines_append h, List.filterMap_cons]
  cases infoLine x <;> rfl

theorem pad2 : ∀ n < 100, ∃ a b, ascii (pad 2 n) = [a, b] ∧ digit a = true ∧ digit b = true := by
  intro n hn
  have h : ∀ n : Fin 100, ascii (pad 2 n.val) = [UInt8.ofNat (48 + n.val / 10), UInt8.ofNat (48 + n.val % 10)] ∧
    digit (UInt8.ofNat (48 + n.val / 10)) = true ∧ digit (UInt8.ofNat (48 + n.val % 10)) = true := by decide +kernel
  exact ⟨_, _, h ⟨n, hn⟩⟩

theorem pad3 : ∀ n < 1000, ∃ a b c, ascii (pad 3 n) = [a, b, c] ∧ digit a = true ∧ digit b = true ∧ digit c = true := by
  intro n hn
  have h : ∀ n : Fin 1000, ascii (pad 3 n.val) = [UInt8.ofNat (48 + n.val / 100), UInt8.ofNat (48 + n.val / 10 % 10), UInt8.ofNat (48 + n.val % 10)] ∧
    digit (UInt8.ofNat (48 + n.val / 100)) = true ∧ digit (UInt8.ofNat (48 + n.val / 10 % 10)) = true ∧
    digit (UInt8.ofNat (48 + n.val % 10)) = true := by decide +kernel
  exact ⟨_, _, _, h ⟨n, hn⟩⟩

theorem ascii_append (a b : List Char) : ascii (a ++ b) = ascii a ++ ascii b := by simp [ascii]

theorem ascii_cons (a : Char) (b : List Char) : ascii (a :: b) = UInt8.ofNat a.toNat :: ascii b := rfl

theorem clock_shape {t : Time × ℕ} (h : t.2 < 10 ^ 9) :
    (clockText t).length = 12 ∧ clockLike (clockText t) = true ∧ (10 : Byte) ∉ clockText t := by
  have hc0 : 0 ≤ t.1.clock := by unfold Time.clock; omega
  have hc1 : t.1.clock < 86400 := by unfold Time.clock; omega
  have e3 : t.1.stamp.hour = t.1.clock / 3600 := rfl
  have e4 : t.1.stamp.minute = t.1.clock / 60 % 60 := rfl
  have e5 : t.1.stamp.second = t.1.clock % 60 := rfl
  obtain ⟨a, b, h1, h2, h3⟩ := pad2 t.1.stamp.hour.toNat (by omega)
  obtain ⟨c, d, h4, h5, h6⟩ := pad2 t.1.stamp.minute.toNat (by omega)
  obtain ⟨e, f, h7, h8, h9⟩ := pad2 t.1.stamp.second.toNat (by omega)
  obtain ⟨g, i, j, k1, k2, k3, k4⟩ := pad3 (t.2 / 10 ^ 6) (by omega)
  have key : clockText t = [a, b, 58, c, d, 58, e, f, 46, g, i, j] := by
    unfold clockText
    rw [ascii_append, ascii_append, ascii_append, ascii_cons, ascii_cons, ascii_cons, h1, h4, h7, k1]
    rfl
  have hd : ∀ x : Byte, digit x = true → (10 : Byte) ≠ x := by rintro x hx rfl; exact absurd hx (by decide)
  rw [key]
  refine ⟨rfl, by simp [clockLike, *], ?_⟩
  simp only [List.mem_cons, List.not_mem_nil, or_false, not_or]
  exact ⟨hd _ h2, hd _ h3, by decide, hd _ h5, hd _ h6, by decide, hd _ h8, hd _ h9, by decide, hd _ k2, hd _ k3, hd _ k4⟩

theorem id_shape (n : ℕ) : 4 ≤ (ascii (pad 4 n)).length ∧ ∀ b ∈ ascii (pad 4 n), digit b = true := by
  constructor
  · simp only [ascii, pad, List.length_map, List.length_append, List.length_replicate]; omega
  · intro b hb
    obtain ⟨c, hc, rfl⟩ := List.mem_map.mp hb
    have : c.isDigit = true := by
      rcases List.mem_append.mp hc with h | h
      · rw [(List.mem_replicate.mp h).2]; rfl
      · exact Json.dec_digits n c h
    have := Json.digit_ascii this
    unfold digit
    rw [UInt8.toNat_ofNat_of_lt' (by show c.toNat < 256; omega)]
    simp [this]

/-- What a reader finds in a record marked INFO. -/
theorem info_record {r : Record} (hl : r.level = .info) (ht : r.time.2 < 10 ^ 9) : infoLine r.format = some r.text := by
  obtain ⟨c1, c2, _⟩ := clock_shape ht
  obtain ⟨i1, i2⟩ := id_shape r.id
  have e : r.format = clockText r.time ++ (bs " ▶ INFO " ++ (ascii (pad 4 r.id) ++ 32 :: (r.text ++ reset))) := by
    have : bs " ▶ INFO " = bs " ▶ " ++ bs "INFO" ++ bs " " := by decide +kernel
    unfold Record.format
    rw [hl, this]
    simp only [color, levelName, List.nil_append, List.append_assoc]
    rfl
  unfold infoLine
  rw [e, List.take_left' c1, List.drop_left' c1, c2]
  have hp : (bs " ▶ INFO ").isPrefixOf (bs " ▶ INFO " ++ (ascii (pad 4 r.id) ++ 32 :: (r.text ++ reset))) = true := by
    rw [List.isPrefixOf_iff_prefix]; exact List.prefix_append _ _
  rw [hp, Bool.and_self, if_pos rfl]
  simp only [List.drop_left]
  rw [List.takeWhile_append_of_pos i2, List.dropWhile_append_of_pos i2]
  have h32 : digit 32 = false := by decide
  simp only [List.takeWhile_cons, List.dropWhile_cons, h32, Bool.false_eq_true, if_false, List.append_nil]
  rw [if_pos i1, if_pos (by rw [List.isSuffixOf_iff_suffix]; exact List.suffix_append _ _)]
  have : reset.length = 4 := by decide +kernel
  rw [List.length_append, this, Nat.add_sub_cancel, List.take_left' rfl]

/-- Everything of a record before its text. -/
def Record.head (r : Record) : Str :=
  color r.level ++ clockText r.time ++ bs " ▶ " ++ levelName r.level ++ bs " " ++ ascii (pad 4 r.id) ++ bs " "

theorem Record.format_eq (r : Record) : r.format = r.head ++ (r.text ++ reset) := by
  unfold Record.format Record.head
  rw [List.append_assoc]

theorem head_no_lf {r : Record} (ht : r.time.2 < 10 ^ 9) : (10 : Byte) ∉ r.head := by
  have h1 : (10 : Byte) ∉ color r.level := by cases r.level <;> decide +kernel
  have h2 := (clock_shape ht).2.2
  have h3 : (10 : Byte) ∉ bs " ▶ " := by decide +kernel
  have h4 : (10 : Byte) ∉ levelName r.level := by cases r.level <;> decide +kernel
  have h5 : (10 : Byte) ∉ bs " " := by decide +kernel
  have h6 : (10 : Byte) ∉ ascii (pad 4 r.id) := fun h => absurd ((id_shape r.id).2 _ h) (by decide)
  unfold Record.head
  simp only [List.mem_append, not_or]
  exact ⟨⟨⟨⟨⟨⟨h1, h2⟩, h3⟩, h4⟩, h5⟩, h6⟩, h5⟩

theorem reset_no_lf : (10 : Byte) ∉ reset := by decide +kernel

theorem clockLike_head {b : Byte} (h : digit b = false) (l : Str) : clockLike (b :: l) = false := by
  unfold clockLike
  split
  · rename_i e
    injection e with e1 _
    subst e1
    simp [h]
  · rfl

theorem infoLine_none {b : Byte} (h : digit b = false) (l : Str) : infoLine (b :: l) = none := by
  unfold infoLine
  rw [show (b :: l).take 12 = b :: l.take 11 from rfl, clockLike_head h, Bool.false_and]
  rfl

theorem head_escape {r : Record} (hl : r.level ≠ .info) : ∃ x, r.head = 27 :: x := by
  unfold Record.head
  cases h : r.level with
  | info => exact absurd h hl
  | _ => exact ⟨_, rfl⟩

theorem read_info {r : Record} (hl : r.level = .info) (ht : r.time.2 < 10 ^ 9) (hx : (10 : Byte) ∉ r.text) (y : Str) :
    infoTexts (r.bytes ++ y) = r.text :: infoTexts y := by
  have hn : (10 : Byte) ∉ r.format := by
    rw [r.format_eq]
    simp only [List.mem_append, not_or]
    exact ⟨head_no_lf ht, hx, reset_no_lf⟩
  unfold Record.bytes
  rw [List.append_assoc, List.singleton_append, infoTexts_append hn, info_record hl ht]
  rfl

theorem read_other {r : Record} (h : Other r) (ht : r.time.2 < 10 ^ 9) (y : Str) : infoTexts (r.bytes ++ y) = infoTexts y := by
  obtain ⟨hl, hx⟩ := h
  obtain ⟨x, hx'⟩ := head_escape hl
  rcases hx with hx | ⟨c, hc, hx⟩
  · have hn : (10 : Byte) ∉ r.format := by
      rw [r.format_eq]
      simp only [List.mem_append, not_or]
      exact ⟨head_no_lf ht, hx, reset_no_lf⟩
    unfold Record.bytes
    rw [List.append_assoc, List.singleton_append, infoTexts_append hn, r.format_eq, hx', List.cons_append,
      infoLine_none (by decide)]
    rfl
  · have e : r.bytes ++ y = r.head ++ 10 :: ((37 :: bs "v " ++ confText c ++ reset) ++ 10 :: y) := by
      unfold Record.bytes
      rw [r.format_eq, hc]
      have : noticeText c = 10 :: (37 :: bs "v " ++ confText c) := by
        have : bs "%v " = 37 :: bs "v " := by decide +kernel
        unfold noticeText; rw [this]; rfl
      rw [this]
      simp
    have h2 : (10 : Byte) ∉ 37 :: bs "v " ++ confText c ++ reset := by
      have : (10 : Byte) ∉ 37 :: bs "v " := by decide +kernel
      simp only [List.mem_append, not_or]
      exact ⟨⟨this, hx⟩, reset_no_lf⟩
    rw [e, infoTexts_append (head_no_lf ht), infoTexts_append h2, hx', infoLine_none (by decide), List.cons_append, List.cons_append,
      infoLine_none (by decide)]
    rfl

/-! ### The header of a message is one line -/

theorem natText_digits (n : ℕ) : ∀ b ∈ natText n, digit b = true := by
  intro b hb
  unfold natText at hb
  rw [Json.dec_bytes] at hb
  obtain ⟨c, hc, rfl⟩ := List.mem_map.mp hb
  have := Json.digit_ascii (Json.dec_digits n c hc)
  unfold digit
  rw [UInt8.toNat_ofNat_of_lt' (by show c.toNat < 256; omega)]
  simp [this]

theorem natText_no_lf (n : ℕ) : (10 : Byte) ∉ natText n := fun h => absurd (natText_digits n _ h) (by decide)

theorem hex_no_lf : ∀ b : Byte, (10 : Byte) ∉ ascii [Nat.digitChar (b.toNat / 16), Nat.digitChar (b.toNat % 16)] := by
  have h : ∀ b : Fin 256, (10 : Byte) ∉ ascii [Nat.digitChar (b.val / 16), Nat.digitChar (b.val % 16)] := by decide +kernel
  exact fun b => h ⟨b.toNat, b.toNat_lt⟩

theorem header_no_lf (m : RawMessage) (at_ : Time × ℕ) : (10 : Byte) ∉ headerText m at_ := by
  have hb : (10 : Byte) ∉ bs " " := by decide +kernel
  have hc : (10 : Byte) ∉ bs ": " := by decide +kernel
  have hr := receipt_no (c := 10) '-' (by decide) at_ ⟨by decide, by decide +kernel⟩
  have hx : (10 : Byte) ∉ ([32] : Str).intercalate (m.data.vis.map fun b => ascii [Nat.digitChar (b.toNat / 16), Nat.digitChar (b.toNat % 16)]) := by
    intro h
    rcases mem_intercalate h with h | ⟨t, ht, h⟩
    · exact absurd h (by decide)
    · obtain ⟨b, _, rfl⟩ := List.mem_map.mp ht
      exact hex_no_lf b h
  unfold headerText
  simp only [List.mem_append, not_or]
  exact ⟨⟨⟨⟨⟨⟨⟨⟨⟨⟨⟨⟨hr, hb⟩, natText_no_lf _⟩, hb⟩, natText_no_lf _⟩, hb⟩, natText_no_lf _⟩, hb⟩, natText_no_lf _⟩, hb⟩,
    natText_no_lf _⟩, hc⟩, hx⟩

/-- What a reader finds in a log: the texts of the records marked INFO, if all keep to their lines. -/
theorem read_log (J : List (Bool × Record)) (ht : ∀ r ∈ J, r.2.time.2 < 10 ^ 9) (ho : ∀ r ∈ J, r.1 = false → Other r.2)
    (hl : ∀ r ∈ J, r.1 = true → (10 : Byte) ∉ r.2.text) :
    infoTexts (J.flatMap fun r => r.2.bytes) =
      ((J.filter Prod.fst).map fun r => (r.2.level, r.2.text)).filterMap fun x => if x.1 = .info then some x.2 else none := by
  induction J with
  | nil => decide
  | cons r J ih =>
    have ih := ih (fun x hx => ht x (List.mem_cons_of_mem _ hx)) (fun x hx => ho x (List.mem_cons_of_mem _ hx))
      (fun x hx => hl x (List.mem_cons_of_mem _ hx))
    have t := ht r List.mem_cons_self
    rw [List.flatMap_cons]
    obtain ⟨w, r⟩ := r
    cases w with
    | false =>
      rw [read_other (ho _ List.mem_cons_self rfl) t, ih]
      rfl
    | true =>
      have hx := hl _ List.mem_cons_self rfl
      simp only [List.filter_cons, if_true, List.map_cons, List.filterMap_cons]
      by_cases hi : r.level = .info
      · rw [read_info hi t hx, ih, if_pos hi]
      · rw [read_other ⟨hi, Or.inl hx⟩ t, ih, if_neg hi]

theorem logged_ok {l : LogTo} {here : Place} {o : Opts} {m : Message Body} {at_ : Time × ℕ} {x : List (Level × Str)}
    (hi : l.shows .info = true) (hs : shown o m.header = true) (h : logged l here o m at_ = .ok x) :
    ∃ t, printText here pgnList (parsedOf m) at_ l.verbose = .ok t ∧
      (x.filterMap fun x => if x.1 = .info then some x.2 else none) = [t] ∧
      ∀ y ∈ x, y.2 = headerText m.header at_ ∨ y.2 = t := by
  unfold logged at h
  rw [if_pos hs] at h
  cases hp : printText here pgnList (parsedOf m) at_ l.verbose with
  | error e => rw [hp] at h; cases h
  | ok t =>
    rw [hp] at h
    simp only [bind, Except.bind, pure, Except.pure, Except.ok.injEq] at h
    subst h
    refine ⟨t, rfl, ?_, ?_⟩
    · rw [if_pos hi]
      split <;> rfl
    · rw [if_pos hi]
      intro y hy
      split at hy <;> simp at hy <;> (first | (rcases hy with rfl | rfl <;> simp) | (subst hy; simp))

theorem logged_cat {l : LogTo} {here : Place} {o : Opts} (hi : l.shows .info = true) {es : List (Message Body × (Time × ℕ))} {xs : List (List (Level × Str))}
    (hs : ∀ e ∈ es, shown o e.1.header = true) (h : List.Forall₂ (fun e x => logged l here o e.1 e.2 = .ok x) es xs) :
    List.Forall₂ (fun e t => printText here pgnList (parsedOf e.1) e.2 l.verbose = .ok t) es
      (xs.flatten.filterMap fun x => if x.1 = .info then some x.2 else none) ∧
    ∀ y ∈ xs.flatten, ∃ e ∈ es, y.2 = headerText e.1.header e.2 ∨ printText here pgnList (parsedOf e.1) e.2 l.verbose = .ok y.2 := by
  induction h with
  | nil => exact ⟨.nil, by simp⟩
  | @cons e x es xs h1 _ ih =>
    obtain ⟨ih1, ih2⟩ := ih (fun e he => hs e (List.mem_cons_of_mem _ he))
    obtain ⟨t, h2, h3, h4⟩ := logged_ok hi (hs e List.mem_cons_self) h1
    rw [List.flatten_cons, List.filterMap_append, h3]
    refine ⟨.cons h2 ih1, ?_⟩
    intro y hy
    rcases List.mem_append.mp hy with hy | hy
    · refine ⟨e, List.mem_cons_self, ?_⟩
      rcases h4 y hy with h | h
      · exact .inl h
      · rw [h]; exact .inr h2
    · obtain ⟨e', he', h⟩ := ih2 y hy
      exact ⟨e', List.mem_cons_of_mem _ he', h⟩

theorem forall₂_mem {α γ : Type} {R S : α → γ → Prop} {a : List α} {b : List γ} (h : List.Forall₂ R a b)
    (hs : ∀ x y, x ∈ a → R x y → S x y) : List.Forall₂ S a b := by
  induction h with
  | nil => exact .nil
  | cons h1 _ ih => exact .cons (hs _ _ List.mem_cons_self h1) (ih fun x y hx => hs x y (List.mem_cons_of_mem _ hx))

/-- At any moment the messages written are determined. -/
theorem wrote_exists {β : Type} [DecidableEq β] {P : Program Body β} {es : List (SysEvent Body β)} {s : Sys Body β}
    (h : sysExec P Sys.init es = some (.ok s)) :
    ∃ ms, Wrote P.opts s ms ∧ (s.todo = [] → ms = (s.consumed.map Prod.snd).filter (fun m => shown P.opts m.header)) := by
  have hc := C68_filter (sysInv_exec h).effects
  have key : (s.emitted ++ s.todo).filterMap Effect.logged? =
      ((s.consumed.map Prod.snd).filter (fun m => shown P.opts m.header)).map Message.header := by
    rw [hc]
    generalize s.consumed.map Prod.snd = l
    by_cases hst : P.opts.stats = true
    · rw [if_pos hst]
      have : l.filter (fun m => shown P.opts m.header) = [] := by
        rw [List.filter_eq_nil_iff]
        intro m _
        simp [shown, hst]
      rw [this]; rfl
    · rw [if_neg hst, List.filter_map]
      congr 1
      apply List.filter_congr
      intro m _
      rw [Function.comp, Bool.eq_iff_iff, decide_eq_true_iff]
      have hst : P.opts.stats = false := by simpa using hst
      simp [shown, Passes, allows, hst, and_assoc]
  rw [List.filterMap_append] at key
  set all := (s.consumed.map Prod.snd).filter (fun m => shown P.opts m.header)
  refine ⟨all.take (s.emitted.filterMap Effect.logged?).length, ⟨List.take_prefix _ _, ?_⟩, ?_⟩
  · rw [List.map_take, ← key, List.take_left']
    rfl
  · intro ht
    rw [ht] at key
    simp only [List.filterMap_nil, List.append_nil] at key
    rw [key, List.length_map, List.take_length]

section
variable {β : Type} [DecidableEq β] {P : Program Body β} {here : Place} {conv : ℤ → ℕ} {l : LogTo}

/-- **C128** (what holds): whoever reads the lines marked INFO finds the messages that pass the options, in the order in which they were
taken, one line each, if neither the texts of the bus nor posted settings have line feeds. -/
theorem C128_partial (hl : LocalPlace here) (hi : l.shows .info = true) {es : List (SysEvent Body β)} {s : Sys Body β}
    (h : sysExec P Sys.init es = some (.ok s))
    (hg : ∀ x ∈ s.consumed, ∃ raw, ParsePacket pgnList (Nmea2k.shippedEnv conv) raw (.ok (parsedOf x.2)))
    (hn : ∀ x ∈ s.consumed, NoLineFeed (parsedOf x.2)) :
    ∃ ms, Wrote P.opts s ms ∧ (s.todo = [] → ms = (s.consumed.map Prod.snd).filter (fun m => shown P.opts m.header)) ∧
      ∀ ats J, Written l here P.opts ms ats J →
        List.Forall₂ (fun e t => printText here pgnList (parsedOf e.1) e.2 l.verbose = .ok t ∧
            (Receipt e.2 → NoSemicolon (parsedOf e.1) → ∃ d, pgnList[e.1.body.index]? = some d ∧
              LineSays here e.2 e.1.header d e.1.body.data l.verbose (readLine t)))
          (ms.zip ats) (infoTexts (J.flatMap fun r => r.2.bytes)) := by
  obtain ⟨ms, h1, h2⟩ := wrote_exists h
  refine ⟨ms, h1, h2, ?_⟩
  intro ats J ⟨⟨xs, w1, w2⟩, w3, w4, w5⟩
  have hms : ∀ m ∈ ms, (∃ raw, ParsePacket pgnList (Nmea2k.shippedEnv conv) raw (.ok (parsedOf m))) ∧ NoLineFeed (parsedOf m) ∧
      shown P.opts m.header = true := by
    intro m hm
    obtain ⟨hm1, hm2⟩ := List.mem_filter.mp (h1.1.subset hm)
    obtain ⟨x, hx, rfl⟩ := List.mem_map.mp hm1
    exact ⟨hg x hx, hn x hx, hm2⟩
  have hz : ∀ e ∈ ms.zip ats, e.1 ∈ ms := fun e he => (List.of_mem_zip he).1
  obtain ⟨c1, c2⟩ := logged_cat hi (fun e he => (hms _ (hz e he)).2.2) w1
  rw [read_log J w4 w5, w2]
  · refine forall₂_mem c1 ?_
    intro e t he ht
    refine ⟨ht, ?_⟩
    intro hat hsemi
    obtain ⟨⟨raw, hraw⟩, _, _⟩ := hms _ (hz e he)
    obtain ⟨d, t', k1, k2, k3⟩ := C124_partial hl hraw hat l.verbose hsemi
    rw [ht] at k2
    obtain rfl := Except.ok.inj k2
    have : e.1.header = raw := (Nmea2k.C49_shape hraw).1
    subst this
    exact ⟨d, k1, k3⟩
  · intro r hr hw hx
    have hmem : (r.2.level, r.2.text) ∈ xs.flatten := by
      rw [← w2]
      exact List.mem_map.mpr ⟨r, List.mem_filter.mpr ⟨hr, hw⟩, rfl⟩
    obtain ⟨e, he, h⟩ := c2 _ hmem
    rcases h with h | h
    · simp only at h
      rw [h] at hx
      exact header_no_lf _ _ hx
    · obtain ⟨⟨raw, hraw⟩, hlf, _⟩ := hms _ (hz e he)
      obtain ⟨t, k1, k2⟩ := C124_one_line hl hraw e.2 l.verbose
      rw [h] at k1
      obtain rfl := Except.ok.inj k1
      obtain ⟨k, _, b, hb, hb'⟩ := k2.mp hx
      exact hlf k b hb hb'

end

/-! ### Posted settings -/

/-- A record that was never written, as a text. -/
def fake (text : Str) : Record := ⟨.info, (⟨0, 0⟩, 0), 0, text⟩

/-- Settings with a log level. -/
def withLevel (s : Str) : Doc := ⟨fun x => if x = .logLevel then some (.str s) else none, []⟩

theorem decode_level (s : Str) : Config.decode (fun _ => true) (withLevel s) Config.settings =
    some ⟨fun x => if x = .logLevel then .str s else Config.zeroOf x, []⟩ := by
  unfold Config.decode
  rw [if_pos]
  · congr 1
    congr 1
    funext x
    by_cases h : x = .logLevel <;> simp [withLevel, h]
  · rw [List.all_eq_true]
    intro x _
    by_cases h : x = .logLevel
    · simp only [withLevel, h]
      rfl
    · simp only [withLevel, if_neg h]

/-- The rest of the settings when only the log level is given. -/
def emptyRest : Str := (confText ⟨fun x => Config.zeroOf x, []⟩).drop 1

theorem level_text (s : Str) : confText ⟨fun x => if x = .logLevel then .str s else Config.zeroOf x, []⟩ = 123 :: s ++ emptyRest := by
  have e1 : emptyRest = (confText ⟨fun x => Config.zeroOf x, []⟩).drop 1 := rfl
  rw [e1]
  unfold confText groupText
  simp only [List.map_cons, List.map_nil, Config.zeroOf, scalarText, reduceCtorEq, if_true, if_false, List.append_assoc, List.singleton_append,
    List.cons_append, List.nil_append, List.drop_succ_cons, List.drop_zero]

theorem emptyRest_ok : (10 : Byte) ∉ emptyRest ∧ ∃ x, emptyRest = 32 :: x := by
  refine ⟨by decide +kernel, emptyRest.drop 1, ?_⟩
  decide +kernel

/-- **C128** is false of posted settings: any text can be made to appear as a line of the loop. -/
theorem C128_forged_false (u : String) (hu : (10 : Byte) ∉ bs u) : ∃ d text, posted d = some (.notice, text) ∧
    ∀ (t : Time × ℕ) (id : ℕ), t.2 < 10 ^ 9 → infoTexts (Record.bytes ⟨.notice, t, id, text⟩) = [bs u] := by
  refine ⟨withLevel (10 :: (fake (bs u)).format ++ [10]), _, by unfold posted; rw [decode_level]; rfl, ?_⟩
  intro t id ht
  obtain ⟨r1, x, r2⟩ := emptyRest_ok
  have hf : (fake (bs u)).time.2 < 10 ^ 9 := by show 0 < 10 ^ 9; decide
  have hfake : (10 : Byte) ∉ (fake (bs u)).format := by
    rw [Record.format_eq]
    simp only [List.mem_append, not_or]
    exact ⟨head_no_lf hf, hu, reset_no_lf⟩
  have hv : bs "%v " = 37 :: bs "v " := by decide +kernel
  have e : Record.bytes ⟨.notice, t, id, noticeText ⟨fun x => if x = .logLevel then .str (10 :: (fake (bs u)).format ++ [10]) else Config.zeroOf x, []⟩⟩ =
      Record.head ⟨.notice, t, id, noticeText ⟨fun x => if x = .logLevel then .str (10 :: (fake (bs u)).format ++ [10]) else Config.zeroOf x, []⟩⟩ ++
        10 :: ((37 :: bs "v " ++ [123]) ++ 10 :: ((fake (bs u)).format ++ 10 :: ((emptyRest ++ reset) ++ [10]))) := by
    unfold Record.bytes
    rw [Record.format_eq]
    simp only [noticeText, level_text, hv]
    simp
  have h1 : (10 : Byte) ∉ 37 :: bs "v " ++ [123] := by decide +kernel
  have h2 : (10 : Byte) ∉ emptyRest ++ reset := by
    simp only [List.mem_append, not_or]
    exact ⟨r1, reset_no_lf⟩
  obtain ⟨y, hy⟩ := head_escape (r := ⟨.notice, t, id, noticeText ⟨fun x => if x = .logLevel then .str (10 :: (fake (bs u)).format ++ [10]) else Config.zeroOf x, []⟩⟩)
    (by simp)
  rw [e, infoTexts_append (head_no_lf ht), infoTexts_append h1, infoTexts_append hfake, infoTexts_append h2, hy,
    infoLine_none (by decide), List.cons_append, infoLine_none (by decide), info_record rfl hf, r2, List.cons_append,
    infoLine_none (by decide)]
  rfl

theorem infix_intercalate {sep t : Str} {l : List Str} (h : t ∈ l) : t <:+: sep.intercalate l := by
  induction l with
  | nil => cases h
  | cons a l ih =>
    cases l with
    | nil =>
      obtain rfl := List.mem_singleton.mp h
      rw [List.intercalate_singleton]
    | cons b l =>
      rw [List.intercalate_cons_cons]
      rcases List.mem_cons.mp h with rfl | h
      · rw [List.append_assoc]
        exact (List.prefix_append _ _).isInfix
      · exact (ih h).trans (List.suffix_append _ _).isInfix

/-- The password of the broker, posted with the settings, is written to the log. -/
theorem C128_password_false {d : Doc} {pw : Str} (hp : d.val .password = some (.str pw)) {x : Level × Str} (h : posted d = some x)
    (t : Time × ℕ) (id : ℕ) : pw <:+: Record.bytes ⟨x.1, t, id, x.2⟩ := by
  unfold posted at h
  obtain ⟨c, hc, rfl⟩ := Option.map_eq_some_iff.mp h
  have hv : c.val .password = .str pw := by
    unfold Config.decode at hc
    split at hc
    · obtain rfl := Option.some.inj hc
      simp [hp]
    · cases hc
  have h1 : pw <:+: groupText c [.mqttEnable, .mqttUseTls, .mqttPort, .mqttHost, .clientId, .username, .password, .channel] := by
    unfold groupText
    refine List.IsInfix.trans ?_ (List.prefix_append _ _).isInfix
    refine List.IsInfix.trans ?_ (List.suffix_append _ _).isInfix
    apply infix_intercalate
    exact List.mem_map.mpr ⟨.password, by decide, by rw [hv]; rfl⟩
  have h2 : pw <:+: confText c := by
    refine h1.trans ?_
    unfold confText
    repeat (first | exact (List.suffix_append _ _).isInfix | refine List.IsInfix.trans ?_ (List.prefix_append _ _).isInfix)
  refine h2.trans ?_
  unfold Record.bytes
  refine List.IsInfix.trans ?_ (List.prefix_append _ _).isInfix
  rw [Record.format_eq]
  refine List.IsInfix.trans ?_ (List.suffix_append _ _).isInfix
  refine List.IsInfix.trans ?_ (List.prefix_append _ _).isInfix
  exact (List.suffix_append (10 :: bs "%v ") (confText c)).isInfix

/-! ### A log -/

/-- A message as the loop takes it. -/
def productMsg : Message Body := ⟨product (bs "A") (bs "B"), 72,
  [(0, .u64 1281), (1, .u64 100), (2, .chars (bs "A")), (3, .chars (bs "B")), (4, .nil), (5, .nil), (6, .u64 1), (7, .u64 2)],
  [(0, .u64 1281), (1, .u64 100), (2, .chars (bs "A")), (3, .chars (bs "B")), (4, .nil), (5, .nil), (6, .u64 1), (7, .u64 2)], 0⟩

/-- A loop that does nothing but log. -/
def quietProgram : Program Body Unit := ⟨id, Opts.default, ⟨false, false⟩, fun _ => .ok (), fun _ => .ok none⟩

def quietEvents : List (SysEvent Body Unit) := [.read 3 (some productMsg), .take 3, .act]

def productText : Str :=
  bs "2015-07-04T12:34:56.789 6 7 255 126996 Product Information: 0.NMEA 2000 Version = 1281; 1.Product Code = 100" ++
      bs "; 2.Model ID = A; 3.Software Version Code = B; 6.Certification Level = 1; 7.Load Equivalency = 2"

/-- C128 applies to a log with a notice, the message and posted settings, and this is what is read in it. -/
example (conv : ℤ → ℕ) : ∃ s : Sys Body Unit, sysExec quietProgram Sys.init quietEvents = some (.ok s) ∧ s.todo = [] ∧
    (∀ x ∈ s.consumed, ∃ raw, ParsePacket pgnList (Nmea2k.shippedEnv conv) raw (.ok (parsedOf x.2))) ∧
    (∀ x ∈ s.consumed, NoLineFeed (parsedOf x.2)) ∧ LogTo.shows ⟨false, .info⟩ .info = true ∧
    ∃ J, Written ⟨false, .info⟩ utcPlace quietProgram.opts [productMsg] [afternoon] J ∧ J.length = 3 ∧
      infoTexts (J.flatMap fun r => r.2.bytes) = [productText] := by
  have hprint : printText utcPlace pgnList (parsedOf productMsg) afternoon false = .ok productText := by
    refine (product_print _ _ _ _ genuine_print).trans ?_
    refine congrArg Except.ok ?_
    decide +kernel
  have hlf : (10 : Byte) ∉ productText := by decide +kernel
  have hconf : (10 : Byte) ∉ confText Conf.zero := by decide +kernel
  have hW : Written ⟨false, .info⟩ utcPlace quietProgram.opts [productMsg] [afternoon]
      [(false, ⟨.notice, afternoon, 1, bs "log level set to INFO"⟩), (true, ⟨.info, afternoon, 2, productText⟩),
        (false, ⟨.notice, afternoon, 3, noticeText Conf.zero⟩)] := by
    refine ⟨⟨[[(.info, productText)]], .cons ?_ .nil, rfl⟩, rfl, ?_, ?_⟩
    · have h1 : shown quietProgram.opts productMsg.header = true := by decide +kernel
      show logged ⟨false, .info⟩ utcPlace quietProgram.opts productMsg afternoon = _
      unfold logged
      rw [if_pos h1, show LogTo.verbose ⟨false, .info⟩ = false from rfl, hprint]
      rfl
    · intro r hr
      simp only [List.mem_cons, List.not_mem_nil, or_false] at hr
      rcases hr with rfl | rfl | rfl <;> (show 789000000 < 10 ^ 9; decide)
    · intro r hr hb
      simp only [List.mem_cons, List.not_mem_nil, or_false] at hr
      rcases hr with rfl | rfl | rfl
      · exact ⟨by simp, .inl (by decide +kernel)⟩
      · cases hb
      · exact ⟨by simp, .inr ⟨Conf.zero, rfl, hconf⟩⟩
  refine ⟨_, rfl, rfl, ?_, ?_, rfl, _, hW, rfl, ?_⟩
  · intro x hx
    obtain rfl := List.mem_singleton.mp hx
    exact ⟨_, parsed_of conv product_first (by norm_num) genuine_data⟩
  · intro x hx
    obtain rfl := List.mem_singleton.mp hx
    have key : ∀ e ∈ productMsg.body.data, (match e.2 with | .chars b => !b.contains 10 | _ => true) = true := by decide +kernel
    intro k b hb
    have := get_cases (p := parsedOf productMsg) (P := fun v => (match v with | .chars b => !b.contains 10 | _ => true) = true) rfl key k
    rw [hb] at this
    simpa using this
  · rw [read_log _ hW.times hW.others]
    · rfl
    · intro r hr hb
      simp only [List.mem_cons, List.not_mem_nil, or_false] at hr
      rcases hr with rfl | rfl | rfl
      · cases hb
      · exact hlf
      · cases hb

/-- C128_forged_false and C128_password_false apply. -/
example : (10 : Byte) ∉ bs "2015-07-04T12:34:56.789 6 7 255 126996 Product Information" := by decide +kernel

example : ∃ d x, d.val .password = some (.str (bs "secret")) ∧ posted d = some x :=
  ⟨⟨fun s => if s = .password then some (.str (bs "secret")) else none, []⟩, _, rfl, rfl⟩

end Argo.Log
