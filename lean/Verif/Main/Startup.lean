import Verif.Main.Flags
import Verif.Main.Props
import Verif.Config.Props
import Verif.Config.Save

set_option autoImplicit false

/-!
# Start-up and the log (C107)

`main` (main/argo.go:61-223) up to the point where it waits for a signal, and the level of the log.
-/

namespace Argo.Main

open Argo
open Argo.Signalk (Str bs)
open Argo.Config (Conf Doc Interface Setting Scalar)

/-! ## Model -/

/-- go-logging `Level`. -/
inductive Level where
  | critical | error | warning | notice | info | debug
  deriving DecidableEq, Repr

/-- go-logging `Level`, its number: the less severe the greater. -/
def Level.number : Level → Nat
  | .critical => 0
  | .error => 1
  | .warning => 2
  | .notice => 3
  | .info => 4
  | .debug => 5

/-- go-logging `levelNames`. -/
def levelNames : List (Str × Level) :=
  [(bs "CRITICAL", .critical), (bs "ERROR", .error), (bs "WARNING", .warning), (bs "NOTICE", .notice), (bs "INFO", .info),
    (bs "DEBUG", .debug)]

/-- Where the log goes, argo.go:62-65 and 94-107. -/
structure LogTo where
  /-- to `ioutil.Discard` instead of the standard error -/
  discard : Bool
  level : Level
  deriving DecidableEq, Repr

/-- argo.go:94-107; `fold` is `strings.EqualFold`, used by `logging.LogLevel`.  A leveled back end without a level
of its own has the level DEBUG. -/
def logSetup (fold : Str → Str → Bool) (name : Str) : LogTo :=
  if name = bs "NONE" then ⟨true, .debug⟩
  else
    match levelNames.find? (fun e => fold e.1 name) with
    | some e => ⟨false, e.2⟩
    | none => ⟨false, .debug⟩

/-- go-logging `Logger.IsEnabledFor`, and a back end that is not the null device. -/
def LogTo.shows (l : LogTo) (lv : Level) : Bool := !l.discard && decide (lv.number ≤ l.level.number)

/-- argo.go:158 `verbose`. -/
def LogTo.verbose (l : LogTo) : Bool := decide (l.level = .debug)

/-- A string setting. -/
def strOf (c : Conf) (s : Setting) : Str := match c.val s with | .str x => x | _ => []
/-- An integer setting. -/
def intOf (c : Conf) (s : Setting) : Int := match c.val s with | .int x => x | _ => 0
/-- A boolean setting. -/
def boolOf (c : Conf) (s : Setting) : Bool := match c.val s with | .bool x => x | _ => false

/-- Why the process ends while starting. -/
inductive Why where
  /-- argo.go:86-88 -/
  | config
  /-- argo.go:118-120 -/
  | map
  /-- argo.go:137-139 -/
  | broker
  deriving DecidableEq, Repr

/-- What `main` does. -/
inductive Step where
  /-- argo.go:69-72 -/
  | helpText
  /-- argo.go:74-82: the table as JSON -/
  | table
  /-- `log.Fatal`: the process exits with status 1 -/
  | exit (why : Why)
  /-- argo.go:125-139: a connection to the MQTT broker; `tls` if the scheme of its URL is `ssl` -/
  | broker (tls : Bool) (host : Str) (port : Int)
  /-- argo.go:146-149: both hubs -/
  | hubs
  /-- argo.go:143, 151, websocket_server.go:186: HTTP on an address (empty: all of them) and port -/
  | listen (tls : Bool) (address : Str) (port : Int)
  /-- argo.go:154-155 -/
  | api
  /-- argo.go:154-155 -/
  | ui
  /-- argo.go:157-211: the goroutine that takes the messages -/
  | consumer (log : LogTo)
  /-- argo.go:213-216 `processInterface` -/
  | interface (name : Str) (i : Interface)
  /-- argo.go:221 -/
  | waits
  deriving DecidableEq, Repr

/-- The surroundings of the process. -/
structure World where
  /-- what the named file says as TOML, `none` if it cannot be read -/
  file : Str → Option Doc
  /-- whether `signalk.ParseMappings` accepts the named file -/
  mapOk : Str → Bool
  /-- whether `mqttClient.Connect` succeeds -/
  brokerOk : Bool
  /-- `strings.EqualFold` -/
  fold : Str → Str → Bool
  /-- the order of a range over the map of interfaces -/
  order : List (Str × Interface) → List (Str × Interface)

/-- argo.go:85-92: the configuration in use. -/
def sysconf (w : World) (a : Args) : Conf :=
  let c := (Config.readConfig (w.file a.configFile)).1
  if a.logLevel = [] then c else { c with val := fun s => if s = .logLevel then .str a.logLevel else c.val s }

/-- argo.go:141-216: after the last check. -/
def launch (w : World) (c : Conf) : List Step :=
  (if boolOf c .enableWebsockets then [.hubs, .listen false [] (intOf c .serverPort)] else []) ++ [.api, .ui] ++
    [.consumer (logSetup w.fold (strOf c .logLevel))] ++ (w.order c.interfaces).map (fun e => .interface e.1 e.2) ++ [.waits]

/-- main/argo.go:61-223 `main`. -/
def startup (w : World) (a : Args) : List Step :=
  if a.help then [.helpText]
  else if a.explain then [.table]
  else if !(Config.readConfig (w.file a.configFile)).2 then [.exit .config]
  else
    let c := sysconf w a
    if !w.mapOk (strOf c .mapFile) then [.exit .map]
    else if boolOf c .mqttEnable then
      .broker true (strOf c .mqttHost) (intOf c .mqttPort) :: if w.brokerOk then launch w c else [.exit .broker]
    else launch w c

/-- A line of the log. -/
inductive LogLine where
  /-- argo.go:167: the header -/
  | header (h : RawMessage)
  /-- argo.go:168: the message; `verbose` shows fields without a value -/
  | text (h : RawMessage) (verbose : Bool)
  deriving DecidableEq

/-- argo.go:167-168: what reaches the log of an effect of the consumer. -/
def logLines {β : Type} (l : LogTo) : Effect β → List LogLine
  | .logged h => (if l.shows .debug then [.header h] else []) ++ (if l.shows .info then [.text h l.verbose] else [])
  | _ => []

/-! ## Specification -/

/-- ASCII. -/
def Ascii (s : Str) : Prop := ∀ b ∈ s, b.toNat < 128

/-- Upper case of ASCII text. -/
def upperAscii (s : Str) : Str := s.map (fun b => if 97 ≤ b.toNat ∧ b.toNat ≤ 122 then b - 32 else b)

/-- What `strings.EqualFold` does on ASCII. -/
def Folds (fold : Str → Str → Bool) : Prop :=
  ∀ x y, Ascii x → Ascii y → (fold x y = true ↔ upperAscii x = upperAscii y)

/-- What may be logged with each name of a level. -/
def allowed : Str → Option (List Level)
  | s =>
    if s = bs "NONE" then some []
    else if s = bs "CRITICAL" then some [.critical]
    else if s = bs "ERROR" then some [.critical, .error]
    else if s = bs "WARNING" then some [.critical, .error, .warning]
    else if s = bs "NOTICE" then some [.critical, .error, .warning, .notice]
    else if s = bs "INFO" then some [.critical, .error, .warning, .notice, .info]
    else if s = bs "DEBUG" then some [.critical, .error, .warning, .notice, .info, .debug]
    else none

/-- The level asked for: on the command line, or else in the configuration file. -/
def requested (a : Args) (c : Conf) : Str := if a.logLevel = [] then strOf c .logLevel else a.logLevel

/-- Everything the process needs before it opens an interface. -/
structure Ready (w : World) (a : Args) : Prop where
  wanted : a.help = false ∧ a.explain = false
  config : (Config.readConfig (w.file a.configFile)).2 = true
  map : w.mapOk (strOf (Config.readConfig (w.file a.configFile)).1 .mapFile) = true
  broker : (Config.readConfig (w.file a.configFile)).1.val .mqttEnable = .bool true → w.brokerOk = true

/-! ## Lemmas -/

theorem sysconf_val (w : World) (a : Args) {s : Setting} (hs : s ≠ .logLevel) :
    (sysconf w a).val s = (Config.readConfig (w.file a.configFile)).1.val s := by
  unfold sysconf
  split <;> simp [hs]

theorem sysconf_interfaces (w : World) (a : Args) :
    (sysconf w a).interfaces = (Config.readConfig (w.file a.configFile)).1.interfaces := by
  unfold sysconf
  split <;> rfl

theorem sysconf_str (w : World) (a : Args) {s : Setting} (hs : s ≠ .logLevel) :
    strOf (sysconf w a) s = strOf (Config.readConfig (w.file a.configFile)).1 s := by
  unfold strOf; rw [sysconf_val w a hs]

theorem sysconf_level (w : World) (a : Args) :
    strOf (sysconf w a) .logLevel = requested a (Config.readConfig (w.file a.configFile)).1 := by
  unfold sysconf requested
  split <;> simp [strOf]

theorem bool_iff (c : Conf) (s : Setting) : boolOf c s = true ↔ c.val s = .bool true := by
  unfold boolOf
  split
  · rename_i x h; rw [h]; simp
  · rename_i h; constructor
    · intro h'; cases h'
    · intro h'; exact absurd h' (h true)

/-- The first step when a broker is used. -/
def brokerStep (c : Conf) : List Step :=
  if boolOf c .mqttEnable then [.broker true (strOf c .mqttHost) (intOf c .mqttPort)] else []

theorem startup_ready {w : World} {a : Args} (h : Ready w a) :
    startup w a = brokerStep (sysconf w a) ++ launch w (sysconf w a) := by
  unfold startup brokerStep
  have hm : w.mapOk (strOf (sysconf w a) .mapFile) = true := by rw [sysconf_str w a (by decide)]; exact h.map
  rw [if_neg (by simp [h.wanted.1]), if_neg (by simp [h.wanted.2]), if_neg (by simp [h.config])]
  simp only [hm]
  by_cases hb : boolOf (sysconf w a) .mqttEnable = true
  · have hk : w.brokerOk = true := h.broker (by rw [← sysconf_val w a (by decide)]; exact (bool_iff _ _).1 hb)
    simp [hb, hk]
  · simp [hb]

/-- What happens otherwise. -/
theorem startup_not_ready {w : World} {a : Args} (h : ¬ Ready w a) :
    startup w a = [.helpText] ∧ a.help = true ∨
    startup w a = [.table] ∧ a.help = false ∧ a.explain = true ∨
    (a.help = false ∧ a.explain = false) ∧
      (startup w a = [.exit .config] ∧ (Config.readConfig (w.file a.configFile)).2 = false ∨
       (Config.readConfig (w.file a.configFile)).2 = true ∧
        (startup w a = [.exit .map] ∧ w.mapOk (strOf (Config.readConfig (w.file a.configFile)).1 .mapFile) = false ∨
         w.mapOk (strOf (Config.readConfig (w.file a.configFile)).1 .mapFile) = true ∧
           (Config.readConfig (w.file a.configFile)).1.val .mqttEnable = .bool true ∧ w.brokerOk = false ∧
           startup w a = [.broker true (strOf (sysconf w a) .mqttHost) (intOf (sysconf w a) .mqttPort), .exit .broker])) := by
  unfold startup
  cases h1 : a.help with
  | true => exact .inl ⟨by simp, rfl⟩
  | false =>
    cases h2 : a.explain with
    | true => exact .inr (.inl ⟨by simp, rfl, rfl⟩)
    | false =>
      refine .inr (.inr ⟨⟨rfl, rfl⟩, ?_⟩)
      cases h3 : (Config.readConfig (w.file a.configFile)).2 with
      | false => exact .inl ⟨by simp, rfl⟩
      | true =>
        refine .inr ⟨rfl, ?_⟩
        have e := sysconf_str w a (s := .mapFile) (by decide)
        cases h4 : w.mapOk (strOf (Config.readConfig (w.file a.configFile)).1 .mapFile) with
        | false => exact .inl ⟨by simp [e, h4], rfl⟩
        | true =>
          by_cases hb : boolOf (sysconf w a) .mqttEnable = true
          · have hb' := (bool_iff _ _).1 hb
            rw [sysconf_val w a (by decide)] at hb'
            cases h5 : w.brokerOk with
            | true => exact absurd ⟨⟨h1, h2⟩, h3, h4, fun _ => h5⟩ h
            | false => exact .inr ⟨rfl, hb', rfl, by simp [e, h4, hb]⟩
          · exfalso; refine h ⟨⟨h1, h2⟩, h3, h4, fun hh => ?_⟩
            rw [← sysconf_val w a (by decide)] at hh
            exact absurd ((bool_iff _ _).2 hh) hb

/-! ## Theorems -/

/-- **C107** (`-help` and `-explain`): only the text is printed; no file is read, nothing is opened. -/
theorem C107_texts (w : World) (a : Args) :
    (a.help = true → startup w a = [.helpText]) ∧ (a.help = false → a.explain = true → startup w a = [.table]) := by
  constructor
  · intro h; simp [startup, h]
  · intro h1 h2; simp [startup, h1, h2]

/-- **C107** (checks): the process ends while starting exactly if a file or the broker fails, with the first that
fails; then no interface is opened, no server is started and no message is taken. -/
theorem C107_checks (w : World) (a : Args) (h : a.help = false ∧ a.explain = false) (why : Why) :
    .exit why ∈ startup w a ↔
      match why with
      | .config => (Config.readConfig (w.file a.configFile)).2 = false
      | .map => (Config.readConfig (w.file a.configFile)).2 = true ∧
          w.mapOk (strOf (Config.readConfig (w.file a.configFile)).1 .mapFile) = false
      | .broker => (Config.readConfig (w.file a.configFile)).2 = true ∧
          w.mapOk (strOf (Config.readConfig (w.file a.configFile)).1 .mapFile) = true ∧
          (Config.readConfig (w.file a.configFile)).1.val .mqttEnable = .bool true ∧ w.brokerOk = false := by
  by_cases hr : Ready w a
  · have hn : Step.exit why ∉ startup w a := by
      rw [startup_ready hr]
      unfold brokerStep launch
      split <;> split <;> simp
    simp only [hn, false_iff]
    cases why with
    | config => simp [hr.config]
    | map => simp [hr.map]
    | broker => rintro ⟨_, _, h3, h4⟩; rw [hr.broker h3] at h4; cases h4
  · rcases startup_not_ready hr with ⟨_, h1⟩ | ⟨_, _, h1⟩ | ⟨_, ⟨e, h1⟩ | ⟨h1, ⟨e, h2⟩ | ⟨h2, h3, h4, e⟩⟩⟩
    · rw [h.1] at h1; cases h1
    · rw [h.2] at h1; cases h1
    · rw [e]; cases why <;> simp [h1]
    · rw [e]; cases why <;> simp [h1, h2]
    · rw [e]; cases why <;> simp [h1, h2, h3, h4]

/-- **C107** (nothing is opened too early): a server, the consumer or an interface is started only if everything
needed is there. -/
theorem C107_guarded {w : World} {a : Args} {s : Step} (hs : s ∈ startup w a)
    (h : s ∈ [Step.hubs, .api, .ui, .waits] ∨ (∃ t l p, s = .listen t l p) ∨ (∃ l, s = .consumer l) ∨ ∃ n i, s = .interface n i) :
    Ready w a := by
  by_cases hr : Ready w a
  · exact hr
  · exfalso
    rcases startup_not_ready hr with ⟨e, _⟩ | ⟨e, _⟩ | ⟨_, ⟨e, _⟩ | ⟨_, ⟨e, _⟩ | ⟨_, _, _, e⟩⟩⟩ <;>
      · rw [e] at hs
        simp only [List.mem_cons, List.not_mem_nil, or_false] at hs h
        rcases hs with rfl | rfl <;> simp at h

/-- **C107** (interfaces): when everything is there, every configured interface is started exactly once, after the
goroutine that takes the messages. -/
theorem C107_interfaces {w : World} (ho : ∀ l, (w.order l).Perm l) {a : Args} (h : Ready w a) :
    ∃ before l after, startup w a = before ++ .consumer l :: after ++ [.waits] ∧
      (∀ s ∈ before, ∀ n i, s ≠ .interface n i) ∧
      ∃ ifs : List (Str × Interface), ifs.Perm (Config.readConfig (w.file a.configFile)).1.interfaces ∧ after = ifs.map (fun e => .interface e.1 e.2) := by
  refine ⟨brokerStep (sysconf w a) ++ (if boolOf (sysconf w a) .enableWebsockets then
      [.hubs, .listen false [] (intOf (sysconf w a) .serverPort)] else []) ++ [.api, .ui], _, _,
    by rw [startup_ready h]; simp [launch]; rfl, ?_, w.order (sysconf w a).interfaces, ?_, rfl⟩
  · intro s hs n i
    unfold brokerStep at hs
    split at hs <;> split at hs <;> (simp at hs; rintro rfl; simp at hs)
  · rw [← sysconf_interfaces]; exact ho _

/-- **C107** (servers): for every configuration file the servers for HTTP and WebSockets run (a file cannot switch
them off) on the port the file names, without TLS and on all addresses, and the hubs are started before. -/
theorem C107_servers {w : World} {a : Args} (h : Ready w a) {d : Doc} (hd : w.file a.configFile = some d) :
    ∃ port, Step.listen false [] port ∈ startup w a ∧ [Step.hubs, .listen false [] port, .api, .ui].Sublist (startup w a) ∧
      (∀ p, d.val .serverPort = some (.int p) → p ≠ 0 → port = p) ∧ (d.val .serverPort = none → port = 8080) := by
  have hc := h.config
  rw [hd] at hc
  have hv := (Config.C73_value d hc).1
  have hwt : ∀ s v, Config.inToml s = true → d.val s = some v → v.sameType (Config.zeroOf s) = true := by
    intro s v hs hsv
    cases hx : v.sameType (Config.zeroOf s) with
    | true => rfl
    | false =>
      exfalso
      have := (Config.C73_error (some d)).1.2 (by
        rintro _ ⟨⟩
        exact ⟨s, v, hsv, hs, hx⟩)
      rw [this] at hc; cases hc
  have hw : boolOf (sysconf w a) .enableWebsockets = true := by
    rw [bool_iff, sysconf_val w a (by decide), hd, hv _ (by decide)]
    cases he : d.val .enableWebsockets with
    | none => rfl
    | some v =>
      simp only
      split
      · rfl
      · rename_i hz
        have ht := hwt _ _ (by decide) he
        cases v with
        | bool b => cases b with
          | true => rfl
          | false => exact absurd rfl hz
        | str _ => cases ht
        | int _ => cases ht
  refine ⟨intOf (sysconf w a) .serverPort, ?_, ?_, ?_, ?_⟩
  · rw [startup_ready h]; simp [launch, hw]
  · rw [startup_ready h]
    refine List.Sublist.trans ?_ (List.sublist_append_right _ _)
    simp [launch, hw]
  · intro p hp hz
    have := hv .serverPort (by decide)
    rw [hp] at this
    have hz' : Scalar.int p ≠ Config.zeroOf .serverPort := by simpa [Config.zeroOf] using hz
    simp only [hz', if_false] at this
    unfold intOf
    rw [sysconf_val w a (by decide), hd, this]
  · intro hp
    have := hv .serverPort (by decide)
    rw [hp] at this
    unfold intOf
    rw [sysconf_val w a (by decide), hd, this]
    rfl

/-- A configuration file that says only what is listed. -/
def fileOf (l : List (Setting × Scalar)) : Doc := ⟨fun s => (l.find? (fun e => e.1 = s)).map Prod.snd, []⟩

/-- The surroundings with one configuration file and nothing in the way. -/
def exampleWorld (d : Doc) : World where
  file := fun n => if n = bs "argo.conf" then some d else none
  mapOk := fun n => decide (n = bs "map.xml")
  brokerOk := true
  fold := fun x y => decide (upperAscii x = upperAscii y)
  order := fun l => l

/-- **C107** is false of the settings `UseTls` and `ListenOn` of the server: with both set it listens without TLS on
all addresses. -/
theorem C107_listen_false : ∃ (w : World) (a : Args) (d : Doc), w.file a.configFile = some d ∧
    d.val .serverUseTls = some (.bool true) ∧ d.val .listenOn = some (.str (bs "127.0.0.1")) ∧ Ready w a ∧
    Step.listen false [] 8080 ∈ startup w a := by
  refine ⟨exampleWorld (fileOf [(.serverUseTls, .bool true), (.listenOn, .str (bs "127.0.0.1"))]), .initial, _, rfl, rfl, rfl,
    ⟨⟨rfl, rfl⟩, by decide +kernel, by decide +kernel, fun _ => rfl⟩, by decide +kernel⟩

/-- **C107** (broker): the broker is asked for exactly if the file enables it, always over TLS, whatever the file says
of it. -/
theorem C107_broker {w : World} {a : Args} (h : Ready w a) (tls : Bool) (host : Str) (port : Int) :
    Step.broker tls host port ∈ startup w a ↔
      (Config.readConfig (w.file a.configFile)).1.val .mqttEnable = .bool true ∧ tls = true ∧
      host = strOf (Config.readConfig (w.file a.configFile)).1 .mqttHost ∧
      port = intOf (Config.readConfig (w.file a.configFile)).1 .mqttPort := by
  rw [startup_ready h, ← sysconf_val w a (by decide), ← bool_iff]
  have e1 := sysconf_str w a (s := .mqttHost) (by decide)
  have e2 : intOf (sysconf w a) .mqttPort = intOf (Config.readConfig (w.file a.configFile)).1 .mqttPort := by
    unfold intOf; rw [sysconf_val w a (by decide)]
  unfold brokerStep launch
  rw [e1, e2]
  by_cases hb : boolOf (sysconf w a) .mqttEnable = true
  · by_cases hw : boolOf (sysconf w a) .enableWebsockets = true <;> simp [hb, hw]
  · by_cases hw : boolOf (sysconf w a) .enableWebsockets = true <;> simp [hb, hw]

/-! ### The log -/

theorem logSetup_find {fold : Str → Str → Bool} (hf : Folds fold) {name : Str} (ha : Ascii name) :
    levelNames.find? (fun e => fold e.1 name) = levelNames.find? (fun e => decide (e.1 = upperAscii name)) := by
  have key : ∀ e ∈ levelNames, fold e.1 name = decide (e.1 = upperAscii name) := by
    intro e he
    have h1 : Ascii e.1 ∧ upperAscii e.1 = e.1 := by
      revert e
      unfold Ascii
      decide +kernel
    have h2 := hf e.1 name h1.1 ha
    rw [h1.2] at h2
    rw [Bool.eq_iff_iff, h2]; simp
  have gen : ∀ l : List (Str × Level), (∀ e ∈ l, fold e.1 name = decide (e.1 = upperAscii name)) →
      l.find? (fun e => fold e.1 name) = l.find? (fun e => decide (e.1 = upperAscii name)) := by
    intro l
    induction l with
    | nil => intro _; rfl
    | cons e l ih =>
      intro h
      simp only [List.find?_cons]
      rw [h e (by simp), ih (fun x hx => h x (by simp [hx]))]
  exact gen _ key

/-- What is logged with a name of a level written in any way. -/
theorem logSetup_shows {fold : Str → Str → Bool} (hf : Folds fold) {name : Str} (ha : Ascii name) (lv : Level) :
    (logSetup fold name).shows lv =
      if name = bs "NONE" then false
      else match allowed (upperAscii name) with
        | some l => if upperAscii name = bs "NONE" then true else decide (lv ∈ l)
        | none => true := by
  unfold logSetup
  by_cases h0 : name = bs "NONE"
  · simp [h0, LogTo.shows]
  · simp only [h0, if_false]
    rw [logSetup_find hf ha]
    generalize upperAscii name = u
    by_cases h1 : u = bs "NONE"
    · subst h1; cases lv <;> decide +kernel
    by_cases h2 : u = bs "CRITICAL"
    · subst h2; cases lv <;> decide +kernel
    by_cases h3 : u = bs "ERROR"
    · subst h3; cases lv <;> decide +kernel
    by_cases h4 : u = bs "WARNING"
    · subst h4; cases lv <;> decide +kernel
    by_cases h5 : u = bs "NOTICE"
    · subst h5; cases lv <;> decide +kernel
    by_cases h6 : u = bs "INFO"
    · subst h6; cases lv <;> decide +kernel
    by_cases h7 : u = bs "DEBUG"
    · subst h7; cases lv <;> decide +kernel
    have e : levelNames.find? (fun e => decide (e.1 = u)) = none := by
      simp [levelNames, Ne.symm h2, Ne.symm h3, Ne.symm h4, Ne.symm h5, Ne.symm h6, Ne.symm h7]
    rw [e]
    simp only [allowed, h1, h2, h3, h4, h5, h6, h7, if_false]
    cases lv <;> rfl

/-- **C107** (level), as far as it holds: the level on the command line in any case, or else the one in the file in
any case except `NONE` in lower case, decides what is logged. -/
theorem C107_level_partial {w : World} (hf : Folds w.fold) {a : Args} (h : Ready w a) {log : LogTo}
    (hl : Step.consumer log ∈ startup w a) (ha : Ascii (requested a (Config.readConfig (w.file a.configFile)).1))
    {l : List Level} (hn : allowed (upperAscii (requested a (Config.readConfig (w.file a.configFile)).1)) = some l)
    (hc : upperAscii (requested a (Config.readConfig (w.file a.configFile)).1) = bs "NONE" →
      requested a (Config.readConfig (w.file a.configFile)).1 = bs "NONE") (lv : Level) :
    log.shows lv = true ↔ lv ∈ l := by
  have hlog : log = logSetup w.fold (requested a (Config.readConfig (w.file a.configFile)).1) := by
    rw [startup_ready h] at hl
    unfold brokerStep launch at hl
    rw [sysconf_level] at hl
    by_cases hb : boolOf (sysconf w a) .mqttEnable = true <;>
      by_cases hw : boolOf (sysconf w a) .enableWebsockets = true <;> simpa [hb, hw] using hl
  rw [hlog, logSetup_shows hf ha, hn]
  generalize requested a (Config.readConfig (w.file a.configFile)).1 = name at *
  by_cases h0 : name = bs "NONE"
  · have : l = [] := by
      rw [h0] at hn
      have e : allowed (upperAscii (bs "NONE")) = some [] := by decide +kernel
      rw [e] at hn; cases hn; rfl
    simp [h0, this]
  · have h1 : upperAscii name ≠ bs "NONE" := fun e => h0 (hc e)
    simp [h0, h1]

/-- **C107** (level): an option in any case is as good as in capitals. -/
theorem C107_option {int : Str → Option Int} {upper : Str → Str} (hu : ∀ s, Ascii s → upper s = upperAscii s)
    {args : List Str} {a : Args} (h : commandLine int upper args = some a) {os : List (Flag × Str)} (ho : Line os args)
    {v : Str} (hv : lastOf .log os = some v) (ha : Ascii v) : a.logLevel = upperAscii v := by
  simp only [commandLine, Option.map_eq_some_iff] at h
  obtain ⟨b, hb, rfl⟩ := h
  rw [parse_line ho] at hb
  have := (setAll_means os hb).logLevel
  simp only [hv, Option.getD_some, id_eq] at this
  rw [this, hu v ha]

/-- **C107** is false of the level `none` in the configuration file: everything is logged. -/
theorem C107_level_false : ∃ (w : World) (a : Args) (d : Doc), Folds w.fold ∧ w.file a.configFile = some d ∧
    d.val .logLevel = some (.str (bs "none")) ∧ a.logLevel = [] ∧ Ready w a ∧
    ∃ log, Step.consumer log ∈ startup w a ∧ ∀ lv, log.shows lv = true := by
  refine ⟨exampleWorld (fileOf [(.logLevel, .str (bs "none"))]), .initial, _, ?_, rfl, rfl, rfl,
    ⟨⟨rfl, rfl⟩, by decide +kernel, by decide +kernel, fun _ => rfl⟩, ⟨false, .debug⟩, by decide +kernel,
    fun lv => by cases lv <;> rfl⟩
  intro x y _ _
  simp [exampleWorld]

/-- **C107** (messages in the log): the messages logged are, in order, those that pass the options, each with the
header line when DEBUG is logged and the text when INFO is logged; fields without a value are shown exactly at
level DEBUG. -/
theorem C107_messages {δ β : Type} {sort : List String → List String} {o : Opts} {out : Outputs}
    {print : Message δ → GoM Unit} {delta : Message δ → GoM (Option β)} {s s' : Stats} {ms : List (Message δ)}
    {e : List (Effect β)} (h : consume sort o out print delta s ms = .ok (s', e)) (fold : Str → Str → Bool) (name : Str) :
    e.flatMap (logLines (logSetup fold name)) =
      (if o.stats then [] else (ms.map Message.header).filter (fun m => decide (Passes o m))).flatMap (fun h =>
        if (logSetup fold name).shows .debug then [.header h, .text h true]
        else if (logSetup fold name).shows .info then [.text h false] else []) := by
  rw [← C68_filter h]
  generalize hl : logSetup fold name = l
  clear h
  induction e with
  | nil => rfl
  | cons x e ih =>
    rw [List.flatMap_cons, ih]
    have hx : logLines l x = (Effect.logged? x).toList.flatMap (fun h =>
        if l.shows .debug then [.header h, .text h true] else if l.shows .info then [.text h false] else []) := by
      cases x with
      | logged m =>
        obtain ⟨d, lv⟩ := l
        simp only [logLines, Effect.logged?, Option.toList, List.flatMap_cons, List.flatMap_nil, List.append_nil]
        cases d <;> cases lv <;> rfl
      | _ => rfl
    rw [hx, List.filterMap_cons]
    cases Effect.logged? x <;> simp

/-- **C107** is false of saving: whatever is saved by a process that was started with another configuration file, that
file stays as it was, so that the next start with the same options reads the old settings. -/
theorem C107_saved_false (fs : Config.FS) (done : List Config.Save) (a : Args) (h : a.configFile ≠ bs "argo.conf")
    (h' : a.configFile ≠ bs "argo.conf~") : Config.saves fs done a.configFile = fs a.configFile := by
  induction done generalizing fs with
  | nil => rfl
  | cons s ss ih =>
    rw [Config.saves, ih]
    simp only [Config.Save.ops, Config.saveOps, Config.applyAll_append, Config.applyAll_writeFile]
    rw [if_neg (show a.configFile ≠ Config.confName from h), if_neg (show a.configFile ≠ Config.bakName from h')]

/-! ### The hypotheses can be met -/

/-- Two interfaces, MQTT, a level in lower case. -/
def exampleFile : Doc :=
  { fileOf [(.logLevel, .str (bs "notice")), (.mqttEnable, .bool true), (.serverPort, .int 3000)] with
    interfaces := [(bs "a", ⟨bs "/dev/ttyUSB0", bs "actisense", 115200⟩), (bs "b", ⟨bs "log.json", bs "file", 0⟩)] }

example : Ready (exampleWorld exampleFile) .initial :=
  ⟨⟨rfl, rfl⟩, by decide +kernel, by decide +kernel, fun _ => rfl⟩

example : startup (exampleWorld exampleFile) .initial =
    [.broker true (bs "localhost") 8883, .hubs, .listen false [] 3000, .api, .ui, .consumer ⟨false, .notice⟩,
      .interface (bs "a") ⟨bs "/dev/ttyUSB0", bs "actisense", 115200⟩, .interface (bs "b") ⟨bs "log.json", bs "file", 0⟩,
      .waits] := by decide +kernel

example : startup (exampleWorld exampleFile) { Args.initial with configFile := bs "other.conf" } = [.exit .config] := by
  decide +kernel

example : startup { exampleWorld exampleFile with brokerOk := false } .initial =
    [.broker true (bs "localhost") 8883, .exit .broker] := by decide +kernel

example : allowed (upperAscii (requested Args.initial (Config.readConfig (some exampleFile)).1)) =
    some [.critical, .error, .warning, .notice] := by decide +kernel

example : (commandLine exampleInt upperAscii [bs "-log", bs "none"]).map (fun a => (startup (exampleWorld exampleFile) a)[5]?) =
    some (some (.consumer ⟨true, .debug⟩)) := by decide +kernel

end Argo.Main
