import Verif.Config.Model
import Mathlib.Data.List.Induction

set_option autoImplicit false

/-!
# The command line (C106)

main/flags.go:28-56 with the package `flag`.
-/

namespace Argo.Main

open Argo
open Argo.Signalk (Str bs)

/-! ## Model -/

/-- main/flags.go:28-37 `commandArgs`. -/
structure Args where
  help : Bool
  explain : Bool
  stats : Bool
  pgn : Int
  src : Int
  dst : Int
  logLevel : Str
  configFile : Str
  deriving DecidableEq, Repr

/-- main/flags.go:42-49: the options that are registered. -/
inductive Flag where
  | help | explain | statistic | pgn | source | dest | log | config
  deriving DecidableEq, Repr

/-- main/flags.go:42-49: the values before any option is read. -/
def Args.initial : Args := ⟨false, false, false, 0, 255, 255, [], bs "argo.conf"⟩

/-- main/flags.go:42-49: the names. -/
def Flag.ofName (n : Str) : Option Flag :=
  if n = bs "help" then some .help
  else if n = bs "explain" then some .explain
  else if n = bs "statistic" then some .statistic
  else if n = bs "pgn" then some .pgn
  else if n = bs "source" then some .source
  else if n = bs "dest" then some .dest
  else if n = bs "log" then some .log
  else if n = bs "config" then some .config
  else none

/-- `flag.boolFlag`: registered with `BoolVar`. -/
def Flag.isBool : Flag → Bool
  | .help | .explain | .statistic => true
  | _ => false

/-- `strconv.ParseBool`. -/
def parseBool (s : Str) : Option Bool :=
  if s ∈ [bs "1", bs "t", bs "T", bs "TRUE", bs "true", bs "True"] then some true
  else if s ∈ [bs "0", bs "f", bs "F", bs "FALSE", bs "false", bs "False"] then some false
  else none

/-- `flag.Value.Set` of an option; `int` is `strconv.ParseInt(s, 0, 64)`. -/
def Args.set (int : Str → Option Int) (a : Args) : Flag → Str → Option Args
  | .help, v => (parseBool v).map fun b => { a with help := b }
  | .explain, v => (parseBool v).map fun b => { a with explain := b }
  | .statistic, v => (parseBool v).map fun b => { a with stats := b }
  | .pgn, v => (int v).map fun n => { a with pgn := n }
  | .source, v => (int v).map fun n => { a with src := n }
  | .dest, v => (int v).map fun n => { a with dst := n }
  | .log, v => some { a with logLevel := v }
  | .config, v => some { a with configFile := v }

/-- `flag.FlagSet.parseOne`: the rest of a name, cut at the first `=`. -/
def cutEquals : Str → Str × Option Str
  | [] => ([], none)
  | b :: r => if b = 61 then ([], some r) else (b :: (cutEquals r).1, (cutEquals r).2)

/-- `flag.FlagSet.parseOne`: the name and the value; the first byte is not looked at. -/
def cutName : Str → Str × Option Str
  | [] => ([], none)
  | b :: r => (b :: (cutEquals r).1, (cutEquals r).2)

/-- `flag.FlagSet.parseOne`: what the first argument is. -/
inductive First where
  /-- the options end here -/
  | stop
  /-- bad flag syntax -/
  | bad
  /-- an option with this name and perhaps a value -/
  | option (name : Str) (value : Option Str)

/-- `flag.FlagSet.parseOne`, the part before the name is looked up. -/
def First.of (s : Str) : First :=
  match s with
  | 45 :: 45 :: [] => .stop
  | 45 :: 45 :: b :: r => if b = 45 ∨ b = 61 then .bad else .option (cutName (b :: r)).1 (cutName (b :: r)).2
  | 45 :: b :: r => if b = 61 then .bad else .option (cutName (b :: r)).1 (cutName (b :: r)).2
  | _ => .stop

/-- `flag.FlagSet.Parse`; `none` when it ends the process (`flag.ExitOnError`). -/
def parseFlags (int : Str → Option Int) : List Str → Args → Option Args
  | [], a => some a
  | s :: rest, a =>
    match First.of s with
    | .stop => some a
    | .bad => none
    | .option name value =>
      match Flag.ofName name with
      | none => none
      | some f =>
        match value, f.isBool with
        | some v, _ => (a.set int f v).bind (parseFlags int rest)
        | none, true => (a.set int f (bs "true")).bind (parseFlags int rest)
        | none, false =>
          match rest with
          | [] => none
          | v :: rest => (a.set int f v).bind (parseFlags int rest)

/-- main/flags.go:39-56 `GetCommandLineOptions`; `upper` is `strings.ToUpper`. -/
def commandLine (int : Str → Option Int) (upper : Str → Str) (args : List Str) : Option Args :=
  (parseFlags int args .initial).map fun a => { a with logLevel := upper a.logLevel }

/-! ## Specification -/

/-- The names of the options as the help text shows them. -/
def Flag.name : Flag → String
  | .help => "help"
  | .explain => "explain"
  | .statistic => "statistic"
  | .pgn => "pgn"
  | .source => "source"
  | .dest => "dest"
  | .log => "log"
  | .config => "config"

/-- The ways to type an option with a value: one dash or two; with an equals sign, or the value as the next word;
the value of `-help`, `-explain` and `-statistic` is `true` if it is left out and cannot be the next word. -/
inductive Typed : Flag → Str → List Str → Prop where
  | equals (f : Flag) (v : Str) : Typed f v [bs "-" ++ bs f.name ++ bs "=" ++ v]
  | equals2 (f : Flag) (v : Str) : Typed f v [bs "--" ++ bs f.name ++ bs "=" ++ v]
  | next {f : Flag} (v : Str) : f ∉ [Flag.help, .explain, .statistic] → Typed f v [bs "-" ++ bs f.name, v]
  | next2 {f : Flag} (v : Str) : f ∉ [Flag.help, .explain, .statistic] → Typed f v [bs "--" ++ bs f.name, v]
  | bare {f : Flag} : f ∈ [Flag.help, .explain, .statistic] → Typed f (bs "true") [bs "-" ++ bs f.name]
  | bare2 {f : Flag} : f ∈ [Flag.help, .explain, .statistic] → Typed f (bs "true") [bs "--" ++ bs f.name]

/-- A command line: options one after the other, then a word that is not one, or `--`, and anything after it. -/
inductive Line : List (Flag × Str) → List Str → Prop where
  | nil : Line [] []
  | word {s : Str} (rest : List Str) : s.head? ≠ some 45 ∨ s = bs "-" ∨ s = bs "--" → Line [] (s :: rest)
  | option {f : Flag} {v : Str} {ws rest : List Str} {os : List (Flag × Str)} :
      Typed f v ws → Line os rest → Line ((f, v) :: os) (ws ++ rest)

/-- The value an option ends up with: the last one given, or else the default. -/
def lastOf (f : Flag) (os : List (Flag × Str)) : Option Str :=
  ((os.filter (fun o => o.1 = f)).map Prod.snd).getLast?

/-- `true` and `false` as they may be written. -/
def boolWord (s : Str) : Option Bool :=
  if s ∈ [bs "1", bs "t", bs "T", bs "TRUE", bs "true", bs "True"] then some true
  else if s ∈ [bs "0", bs "f", bs "F", bs "FALSE", bs "false", bs "False"] then some false
  else none

/-- Every value given is of its kind. -/
def Valid (int : Str → Option Int) (os : List (Flag × Str)) : Prop :=
  ∀ f v, (f, v) ∈ os →
    (f ∈ [Flag.help, .explain, .statistic] → (boolWord v).isSome) ∧ (f ∈ [Flag.pgn, .source, .dest] → (int v).isSome)

/-- What the options mean. -/
structure Means (int : Str → Option Int) (upper : Str → Str) (os : List (Flag × Str)) (a : Args) : Prop where
  help : some a.help = match lastOf .help os with | none => some false | some v => boolWord v
  explain : some a.explain = match lastOf .explain os with | none => some false | some v => boolWord v
  stats : some a.stats = match lastOf .statistic os with | none => some false | some v => boolWord v
  pgn : some a.pgn = match lastOf .pgn os with | none => some 0 | some v => int v
  src : some a.src = match lastOf .source os with | none => some 255 | some v => int v
  dst : some a.dst = match lastOf .dest os with | none => some 255 | some v => int v
  logLevel : a.logLevel = upper ((lastOf .log os).getD [])
  configFile : a.configFile = (lastOf .config os).getD (bs "argo.conf")

/-! ## Proofs -/

/-- Setting options one after the other. -/
def setAll (int : Str → Option Int) : List (Flag × Str) → Args → Option Args
  | [], a => some a
  | (f, v) :: os, a => (a.set int f v).bind (setAll int os)

theorem name_plain (f : Flag) : ∃ b r, bs f.name = b :: r ∧ b ≠ 45 ∧ b ≠ 61 ∧ ∀ x ∈ r, x ≠ 61 := by
  cases f <;> exact ⟨_, _, rfl, by decide +kernel⟩

theorem ofName_name (f : Flag) : Flag.ofName (bs f.name) = some f := by cases f <;> decide +kernel

theorem name_of_ofName {n : Str} {f : Flag} (h : Flag.ofName n = some f) : n = bs f.name := by
  unfold Flag.ofName at h
  repeat' split at h
  all_goals first | (cases h; assumption) | cases h

theorem isBool_iff (f : Flag) : f.isBool = true ↔ f ∈ [Flag.help, .explain, .statistic] := by
  cases f <;> decide

theorem cutEquals_value {r v : Str} (hr : ∀ x ∈ r, x ≠ 61) : cutEquals (r ++ 61 :: v) = (r, some v) := by
  induction r with
  | nil => rfl
  | cons b r ih =>
    have hb : b ≠ 61 := hr b (by simp)
    simp [cutEquals, hb, ih (fun x hx => hr x (by simp [hx]))]

theorem cutEquals_bare {r : Str} (hr : ∀ x ∈ r, x ≠ 61) : cutEquals r = (r, none) := by
  induction r with
  | nil => rfl
  | cons b r ih =>
    have hb : b ≠ 61 := hr b (by simp)
    simp [cutEquals, hb, ih (fun x hx => hr x (by simp [hx]))]

/-- The other direction: what was cut. -/
theorem cutEquals_inv (r : Str) :
    ((cutEquals r).2 = none ∧ (cutEquals r).1 = r) ∨ ∃ v, (cutEquals r).2 = some v ∧ r = (cutEquals r).1 ++ 61 :: v := by
  induction r with
  | nil => exact .inl ⟨rfl, rfl⟩
  | cons b r ih =>
    by_cases hb : b = 61
    · subst hb; exact .inr ⟨r, by simp [cutEquals], by simp [cutEquals]⟩
    · simp only [cutEquals, hb, if_false]
      rcases ih with ⟨h1, h2⟩ | ⟨v, h1, h2⟩
      · exact .inl ⟨h1, by rw [h2]⟩
      · exact .inr ⟨v, h1, by rw [List.cons_append, ← h2]⟩

theorem cutName_inv (b : Byte) (r : Str) :
    ((cutName (b :: r)).2 = none ∧ (cutName (b :: r)).1 = b :: r) ∨
      ∃ v, (cutName (b :: r)).2 = some v ∧ b :: r = (cutName (b :: r)).1 ++ 61 :: v := by
  rcases cutEquals_inv r with ⟨h1, h2⟩ | ⟨v, h1, h2⟩
  · exact .inl ⟨h1, by simp [cutName, h2]⟩
  · exact .inr ⟨v, h1, by simp only [cutName, List.cons_append]; rw [← h2]⟩

theorem first_value (f : Flag) (v : Str) :
    First.of (bs "-" ++ bs f.name ++ bs "=" ++ v) = .option (bs f.name) (some v) ∧
    First.of (bs "--" ++ bs f.name ++ bs "=" ++ v) = .option (bs f.name) (some v) := by
  obtain ⟨b, r, e, h1, h2, hr⟩ := name_plain f
  have hc : cutName (b :: (r ++ 61 :: v)) = (b :: r, some v) := by simp [cutName, cutEquals_value hr]
  have d1 : bs "-" = [45] := by decide +kernel
  have d2 : bs "--" = [45, 45] := by decide +kernel
  have d3 : bs "=" = [61] := by decide +kernel
  rw [e, d1, d2, d3]
  constructor
  · simp [First.of, h1, h2, hc]
  · simp [First.of, h1, h2, hc]

theorem first_bare (f : Flag) :
    First.of (bs "-" ++ bs f.name) = .option (bs f.name) none ∧
    First.of (bs "--" ++ bs f.name) = .option (bs f.name) none := by cases f <;> exact ⟨rfl, rfl⟩

theorem first_stop {s : Str} (h : s.head? ≠ some 45 ∨ s = bs "-" ∨ s = bs "--") : First.of s = .stop := by
  rcases h with h | h | h
  · cases s with
    | nil => rfl
    | cons b r =>
      have hb : b ≠ 45 := by simpa using h
      unfold First.of
      split <;> first | rfl | (rename_i e; cases e; exact absurd rfl hb)
  · subst h; rfl
  · subst h; rfl

theorem stop_inv {s : Str} (h : First.of s = .stop) : s.head? ≠ some 45 ∨ s = bs "-" ∨ s = bs "--" := by
  have d1 : bs "-" = [45] := by decide +kernel
  have d2 : bs "--" = [45, 45] := by decide +kernel
  rw [d1, d2]
  unfold First.of at h
  split at h
  · exact .inr (.inr rfl)
  · split at h <;> cases h
  · split at h <;> cases h
  · rename_i h1 h2 h3
    cases s with
    | nil => exact .inl (by simp)
    | cons b r =>
      by_cases hb : b = 45
      · subst hb
        cases r with
        | nil => exact .inr (.inl rfl)
        | cons c r => exact absurd rfl (h3 c r)
      · exact .inl (by simpa using hb)

theorem option_inv {s n : Str} {v : Option Str} (h : First.of s = .option n v) :
    (∀ w, v = some w → s = bs "-" ++ n ++ bs "=" ++ w ∨ s = bs "--" ++ n ++ bs "=" ++ w) ∧
    (v = none → s = bs "-" ++ n ∨ s = bs "--" ++ n) := by
  have d1 : bs "-" = [45] := by decide +kernel
  have d2 : bs "--" = [45, 45] := by decide +kernel
  have d3 : bs "=" = [61] := by decide +kernel
  rw [d1, d2, d3]
  have key : ∀ b r, (cutName (b :: r)).1 = n → (cutName (b :: r)).2 = v →
      (∀ w, v = some w → b :: r = n ++ [61] ++ w) ∧ (v = none → b :: r = n) := by
    intro b r h1 h2
    rcases cutName_inv b r with ⟨e1, e2⟩ | ⟨w, e1, e2⟩
    · refine ⟨fun w hw => ?_, fun _ => by rw [← h1, e2]⟩
      rw [← h2, e1] at hw; cases hw
    · rw [h1] at e2
      refine ⟨fun w' hw => ?_, fun hw => ?_⟩
      · rw [← h2, e1] at hw; cases hw; simpa using e2
      · rw [← h2, e1] at hw; cases hw
  unfold First.of at h
  split at h
  · cases h
  · split at h
    · cases h
    · injection h with h1 h2
      have k := key _ _ h1 h2
      exact ⟨fun w hw => .inr (by rw [k.1 w hw]; simp), fun hw => .inr (by rw [k.2 hw]; rfl)⟩
  · split at h
    · cases h
    · injection h with h1 h2
      have k := key _ _ h1 h2
      exact ⟨fun w hw => .inl (by rw [k.1 w hw]; simp), fun hw => .inl (by rw [k.2 hw]; rfl)⟩
  · cases h

theorem parse_line {int : Str → Option Int} {os : List (Flag × Str)} {args : List Str} (h : Line os args) :
    ∀ a, parseFlags int args a = setAll int os a := by
  induction h with
  | nil => intro a; rfl
  | word rest h => intro a; simp [parseFlags, first_stop h, setAll]
  | @option f w ws rest os ht _ ih =>
    intro a
    cases ht with
    | equals => simp only [List.cons_append, List.nil_append, parseFlags, (first_value f w).1, ofName_name, setAll, funext ih]
    | equals2 => simp only [List.cons_append, List.nil_append, parseFlags, (first_value f w).2, ofName_name, setAll, funext ih]
    | next _ hf =>
      have hb : f.isBool = false := by rw [Bool.eq_false_iff]; exact fun h => hf ((isBool_iff f).1 h)
      simp [parseFlags, (first_bare f).1, ofName_name, setAll, funext ih, hb]
    | next2 _ hf =>
      have hb : f.isBool = false := by rw [Bool.eq_false_iff]; exact fun h => hf ((isBool_iff f).1 h)
      simp [parseFlags, (first_bare f).2, ofName_name, setAll, funext ih, hb]
    | bare hf => simp [parseFlags, (first_bare f).1, ofName_name, setAll, funext ih, (isBool_iff f).2 hf]
    | bare2 hf => simp [parseFlags, (first_bare f).2, ofName_name, setAll, funext ih, (isBool_iff f).2 hf]

theorem line_of_parse {int : Str → Option Int} : ∀ (n : Nat) (args : List Str), args.length ≤ n → ∀ (a a' : Args),
    parseFlags int args a = some a' → ∃ os, Line os args := by
  intro n
  induction n with
  | zero =>
    intro args hn a a' _
    have : args = [] := List.eq_nil_of_length_eq_zero (by omega)
    subst this; exact ⟨[], .nil⟩
  | succ n ih =>
    intro args hlen a a' h
    cases args with
    | nil => exact ⟨[], .nil⟩
    | cons s rest =>
      have hl : rest.length ≤ n := by simp at hlen; exact hlen
      cases hf : First.of s with
      | stop => exact ⟨[], .word rest (stop_inv hf)⟩
      | bad => simp [parseFlags, hf] at h
      | option name value =>
        have hinv := option_inv hf
        cases hof : Flag.ofName name with
        | none => simp [parseFlags, hf, hof] at h
        | some f =>
          have hname := name_of_ofName hof
          cases value with
          | some v =>
            simp only [parseFlags, hf, hof, Option.bind_eq_some_iff] at h
            obtain ⟨a1, _, h2⟩ := h
            obtain ⟨os, ho⟩ := ih rest hl a1 a' h2
            rw [hname] at hinv
            rcases hinv.1 v rfl with e | e <;> subst e
            · exact ⟨_, Line.option (Typed.equals f v) ho⟩
            · exact ⟨_, Line.option (Typed.equals2 f v) ho⟩
          | none =>
            rw [hname] at hinv
            cases hb : f.isBool with
            | true =>
              simp only [parseFlags, hf, hof, hb, Option.bind_eq_some_iff] at h
              obtain ⟨a1, _, h2⟩ := h
              obtain ⟨os, ho⟩ := ih rest hl a1 a' h2
              rcases hinv.2 rfl with e | e <;> subst e
              · exact ⟨_, Line.option (Typed.bare ((isBool_iff f).1 hb)) ho⟩
              · exact ⟨_, Line.option (Typed.bare2 ((isBool_iff f).1 hb)) ho⟩
            | false =>
              have hnb : f ∉ [Flag.help, .explain, .statistic] := fun hm => by
                rw [(isBool_iff f).2 hm] at hb; cases hb
              cases rest with
              | nil => simp [parseFlags, hf, hof, hb] at h
              | cons v rest =>
                simp only [parseFlags, hf, hof, hb, Option.bind_eq_some_iff] at h
                obtain ⟨a1, _, h2⟩ := h
                obtain ⟨os, ho⟩ := ih rest (by simp at hl; omega) a1 a' h2
                rcases hinv.2 rfl with e | e <;> subst e
                · exact ⟨_, Line.option (Typed.next v hnb) ho⟩
                · exact ⟨_, Line.option (Typed.next2 v hnb) ho⟩

theorem lastOf_append (f : Flag) (os : List (Flag × Str)) (o : Flag × Str) :
    lastOf f (os ++ [o]) = if o.1 = f then some o.2 else lastOf f os := by
  unfold lastOf
  by_cases h : o.1 = f
  · simp [List.filter_append, h]
  · simp [List.filter_append, h]

theorem setAll_append (int : Str → Option Int) (os : List (Flag × Str)) (o : Flag × Str) (a : Args) :
    setAll int (os ++ [o]) a = (setAll int os a).bind (fun b => b.set int o.1 o.2) := by
  induction os generalizing a with
  | nil => simp [setAll]
  | cons p os ih =>
    obtain ⟨f, v⟩ := p
    simp only [List.cons_append, setAll]
    cases a.set int f v with
    | none => rfl
    | some b => simp [ih]

theorem set_isSome (int : Str → Option Int) (a : Args) (f : Flag) (v : Str) :
    (a.set int f v).isSome ↔ (f ∈ [Flag.help, .explain, .statistic] → (boolWord v).isSome) ∧
      (f ∈ [Flag.pgn, .source, .dest] → (int v).isSome) := by
  cases f <;> simp [Args.set, parseBool, boolWord]

theorem setAll_isSome (int : Str → Option Int) (os : List (Flag × Str)) (a : Args) :
    (setAll int os a).isSome ↔ Valid int os := by
  induction os generalizing a with
  | nil => simp [setAll, Valid]
  | cons o os ih =>
    obtain ⟨f, v⟩ := o
    have hs := set_isSome int a f v
    have hv : Valid int ((f, v) :: os) ↔ ((f ∈ [Flag.help, .explain, .statistic] → (boolWord v).isSome) ∧
        (f ∈ [Flag.pgn, .source, .dest] → (int v).isSome)) ∧ Valid int os := by
      unfold Valid
      simp only [List.mem_cons, Prod.mk.injEq]
      constructor
      · intro h; exact ⟨h f v (.inl ⟨rfl, rfl⟩), fun g w hw => h g w (.inr hw)⟩
      · rintro ⟨h1, h2⟩ g w (⟨rfl, rfl⟩ | hw)
        · exact h1
        · exact h2 g w hw
    rw [hv, ← hs, setAll]
    cases a.set int f v with
    | none => simp
    | some b => simp [ih]

theorem set_means {int : Str → Option Int} {os : List (Flag × Str)} {a b : Args} {o : Flag × Str}
    (h : Means int id os a) (hb : a.set int o.1 o.2 = some b) : Means int id (os ++ [o]) b := by
  obtain ⟨f, v⟩ := o
  cases f <;> simp only [Args.set, Option.map_eq_some_iff, Option.some.injEq] at hb
  case log => subst hb; constructor <;> simp [lastOf_append, h.help, h.explain, h.stats, h.pgn, h.src, h.dst, h.configFile]
  case config => subst hb; constructor <;> simp [lastOf_append, h.help, h.explain, h.stats, h.pgn, h.src, h.dst, h.logLevel]
  all_goals
    obtain ⟨x, hx, rfl⟩ := hb
    constructor <;>
      simp [lastOf_append, h.help, h.explain, h.stats, h.pgn, h.src, h.dst, h.logLevel, h.configFile, ← hx, parseBool, boolWord]

theorem setAll_means {int : Str → Option Int} (os : List (Flag × Str)) : ∀ {a : Args},
    setAll int os .initial = some a → Means int id os a := by
  induction os using List.reverseRecOn with
  | nil => rintro _ ⟨⟩; constructor <;> rfl
  | append_singleton os o ih =>
    intro a h
    rw [setAll_append, Option.bind_eq_some_iff] at h
    obtain ⟨b, h1, h2⟩ := h
    exact set_means (ih h1) h2

/-! ## Theorems -/

/-- **C106** (what an accepted command line means): the options are accepted exactly if the words are options typed
in one of the usual ways, up to a word that is not an option, and every value is of its kind; then each option has
the last value given, or its default. -/
theorem C106_accepted (int : Str → Option Int) (upper : Str → Str) (args : List Str) (a : Args) :
    commandLine int upper args = some a ↔ ∃ os, Line os args ∧ Valid int os ∧ Means int upper os a := by
  constructor
  · intro h
    simp only [commandLine, Option.map_eq_some_iff] at h
    obtain ⟨b, hb, rfl⟩ := h
    obtain ⟨os, ho⟩ := line_of_parse args.length args (Nat.le_refl _) _ _ hb
    rw [parse_line ho] at hb
    have hm := setAll_means os hb
    exact ⟨os, ho, (setAll_isSome int os _).1 (by rw [hb]; rfl),
      ⟨hm.help, hm.explain, hm.stats, hm.pgn, hm.src, hm.dst, by simp [hm.logLevel], hm.configFile⟩⟩
  · rintro ⟨os, ho, hv, hm⟩
    obtain ⟨b, hb⟩ := Option.isSome_iff_exists.1 ((setAll_isSome int os .initial).2 hv)
    have hm' := setAll_means os hb
    simp only [commandLine, parse_line ho, hb, Option.map_some, Option.some.injEq]
    have e1 := hm.help.trans hm'.help.symm
    have e2 := hm.explain.trans hm'.explain.symm
    have e3 := hm.stats.trans hm'.stats.symm
    have e4 := hm.pgn.trans hm'.pgn.symm
    have e5 := hm.src.trans hm'.src.symm
    have e6 := hm.dst.trans hm'.dst.symm
    have e7 := hm.logLevel
    have e8 := hm.configFile.trans hm'.configFile.symm
    have e9 := hm'.logLevel
    cases a; cases b
    simp_all

/-! ### The hypotheses can be met -/

/-- Decimal digits, for the examples. -/
def exampleInt (s : Str) : Option Int :=
  if s = bs "129025" then some 129025 else if s = bs "3" then some 3 else none

example : commandLine exampleInt (fun s => s) [bs "-pgn", bs "3", bs "--statistic", bs "-pgn=129025", bs "x", bs "-help"] =
    some ⟨false, false, true, 129025, 255, 255, [], bs "argo.conf"⟩ := by decide +kernel

example : commandLine exampleInt (fun s => s) [bs "-statistic", bs "false", bs "-pgn", bs "3"] =
    some ⟨false, false, true, 0, 255, 255, [], bs "argo.conf"⟩ := by decide +kernel

example : commandLine exampleInt (fun s => s) [bs "-pgn"] = none ∧ commandLine exampleInt (fun s => s) [bs "-p=3"] = none ∧
    commandLine exampleInt (fun s => s) [bs "-pgn", bs "-statistic"] = none := by decide +kernel

end Argo.Main
