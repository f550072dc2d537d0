import Verif.Main.Startup
import Mathlib.Tactic.Push

set_option autoImplicit false

/-!
# The MQTT broker while the settings change (C110)

The consumer reads `sysconf` anew for every message, and a POST to `/admin` changes it (ui_server.go:95-116); the client
of the broker is made at the start only (argo.go:124-139).
-/

namespace Argo.Main

open Argo
open Argo.Signalk (Str bs)
open Argo.Config (Conf Doc Interface Setting Scalar)

variable {δ β : Type}

/-! ## Model -/

/-- What reaches the process: a POST to `/admin` (its body, `none` if it is not JSON) or a message from an interface. -/
inductive Event (δ : Type) where
  | post (body : Option Doc)
  | message (m : Message δ)

/-- The variables of the process. -/
structure Running where
  /-- `sysconf` -/
  conf : Conf
  /-- whether `mqttClient` (argo.go:124) is not nil -/
  client : Bool
  stats : Stats

/-- argo.go:124-139: the client is made if the broker is enabled. -/
def Running.start (w : World) (a : Args) : Running := ⟨sysconf w a, boolOf (sysconf w a) .mqttEnable, .empty⟩

/-- What is published: the topic and the bytes. -/
structure Publication (β : Type) where
  topic : Str
  bytes : β
  deriving DecidableEq

/-- argo.go:204-206 `mqttClient.Publish(sysconf.Mqtt.Channel, ...)`: calling a method of a nil interface panics. -/
def publish (r : Running) : List (Effect β) → GoM (List (Publication β))
  | [] => pure []
  | .publish b :: es => do
    if !r.client then throw .nilCall
    let l ← publish r es
    pure (⟨strOf r.conf .channel, b⟩ :: l)
  | _ :: es => publish r es

/-- One input.  A POST is handled by `adminHandler`, a message by one iteration of argo.go:160-210.  Simplification: a
POST is handled between two iterations. -/
def Running.step (sort : List String → List String) (o : Opts) (print : Message δ → GoM Unit)
    (delta : Message δ → GoM (Option β)) (r : Running) : Event δ → GoM (Running × List (Publication β))
  | .post d => pure ({ r with conf := (Config.admin r.conf d).1 }, [])
  | .message m => do
    let (s, es) ← iteration sort o ⟨boolOf r.conf .enableWebsockets, boolOf r.conf .mqttEnable⟩ print delta r.stats m
    let l ← publish r es
    pure ({ r with stats := s }, l)

/-- All inputs in order. -/
def Running.run (sort : List String → List String) (o : Opts) (print : Message δ → GoM Unit)
    (delta : Message δ → GoM (Option β)) : Running → List (Event δ) → GoM (List (Publication β))
  | _, [] => pure []
  | r, i :: is => do
    let (r', l) ← r.step sort o print delta i
    let l' ← Running.run sort o print delta r' is
    pure (l ++ l')

/-! ## Specification -/

/-- The messages among the inputs. -/
def messagesOf (is : List (Event δ)) : List (Message δ) := is.filterMap fun
  | .message m => some m
  | .post _ => none

/-- The deltas of messages, in order, of those that have one. -/
def mappedOf (delta : Message δ → GoM (Option β)) (ms : List (Message δ)) : List β := ms.filterMap fun m =>
  match delta m with
  | .ok (some b) => some b
  | _ => none

/-- A POST that asks for the broker: JSON with values of the right types, `Mqtt.Enable` among them. -/
def AsksForBroker (i : Event δ) : Prop :=
  ∃ d, i = .post (some d) ∧ ¬ Config.Illtyped (fun _ => true) d ∧ d.val .mqttEnable = some (.bool true)

/-- A message with a delta. -/
def HasDelta (delta : Message δ → GoM (Option β)) (i : Event δ) : Prop :=
  ∃ m b, i = .message m ∧ delta m = .ok (some b)

/-! ## Lemmas -/

theorem publish_none (r : Running) {es : List (Effect β)} (h : ∀ b, Effect.publish b ∉ es) :
    publish r es = .ok [] := by
  induction es with
  | nil => rfl
  | cons e es ih =>
    have ih := ih (fun b hb => h b (by simp [hb]))
    cases e with
    | publish b => exact absurd (by simp) (h b)
    | _ => exact ih

theorem publish_append (r : Running) {es es' : List (Effect β)} (h : ∀ b, Effect.publish b ∉ es) :
    publish r (es ++ es') = publish r es' := by
  induction es with
  | nil => rfl
  | cons e es ih =>
    have ih := ih (fun b hb => h b (by simp [hb]))
    cases e with
    | publish b => exact absurd (by simp) (h b)
    | _ => exact ih

/-- What one message does, if nothing else panics. -/
theorem step_message {sort : List String → List String} {o : Opts} {print : Message δ → GoM Unit}
    {delta : Message δ → GoM (Option β)} (r : Running) {m : Message δ} (hp : ∃ u, print m = .ok u) {d : Option β}
    (hd : delta m = .ok d) :
    ∃ s, r.step sort o print delta (.message m) =
      match d with
      | none => .ok ({ r with stats := s }, [])
      | some b =>
        if boolOf r.conf .mqttEnable then
          if r.client then .ok ({ r with stats := s }, [⟨strOf r.conf .channel, b⟩]) else .error .nilCall
        else .ok ({ r with stats := s }, []) := by
  obtain ⟨u, hu⟩ := hp
  refine ⟨count sort r.stats m.header.pgn, ?_⟩
  have hit : iteration sort o ⟨boolOf r.conf .enableWebsockets, boolOf r.conf .mqttEnable⟩ print delta r.stats m =
      .ok (count sort r.stats m.header.pgn,
        (if shown o m.header then [Effect.logged m.header] else []) ++
        (if boolOf r.conf .enableWebsockets then [Effect.statistics (count sort r.stats m.header.pgn).log] else []) ++
        (if o.stats then [Effect.screen ((count sort r.stats m.header.pgn).pgns.map
          (fun k => (k, (mapGet (count sort r.stats m.header.pgn).log k).getD 0)))] else []) ++
        match d with
        | none => []
        | some b => (if boolOf r.conf .enableWebsockets then [Effect.delta b] else []) ++
                    (if boolOf r.conf .mqttEnable then [Effect.publish b] else [])) := by
    unfold iteration
    by_cases hs : shown o m.header = true <;> cases d <;> simp [hs, hu, hd, bind, Except.bind, pure, Except.pure]
  simp only [Running.step, hit, bind, Except.bind]
  rw [publish_append]
  · cases d with
    | none => rfl
    | some b =>
      simp only
      rw [publish_append]
      · by_cases hm : boolOf r.conf .mqttEnable = true
        · by_cases hc : r.client = true
          · simp [hm, hc, publish, bind, Except.bind, pure, Except.pure]
          · simp [hm, hc, publish, bind, Except.bind, throw, throwThe, MonadExceptOf.throw]
        · simp [hm, publish, pure, Except.pure]
      · intro b'; split <;> simp
  · intro b' hb'
    simp only [List.mem_append] at hb'
    rcases hb' with (hb' | hb') | hb' <;> (split at hb' <;> simp at hb')

/-- A setting after a POST. -/
theorem admin_val (c : Conf) (p : Option Doc) (s : Setting) :
    (Config.admin c p).1.val s = c.val s ∨ (c.val s = Config.zeroOf s ∧ ∃ d, p = some d ∧
      ¬ Config.Illtyped (fun _ => true) d ∧ ∃ v, d.val s = some v ∧ (Config.admin c p).1.val s = v) := by
  by_cases hp : ∀ d, p = some d → Config.Illtyped (fun _ => true) d
  · left; rw [(Config.C75_rule c p).1 hp]
  · push Not at hp
    obtain ⟨d, rfl, hd⟩ := hp
    have := ((Config.C75_rule c (some d)).2 d rfl hd).1 s
    by_cases hz : c.val s = Config.zeroOf s
    · rw [if_pos hz] at this
      cases hv : d.val s with
      | none => left; rw [this, hv, hz]; rfl
      | some v => right; exact ⟨hz, d, rfl, hd, v, hv, by rw [this, hv]; rfl⟩
    · left; rw [this, if_neg hz]

theorem admin_keeps {c : Conf} {s : Setting} (h : c.val s ≠ Config.zeroOf s) (p : Option Doc) :
    (Config.admin c p).1.val s = c.val s := by
  rcases admin_val c p s with h' | ⟨h', _⟩
  · exact h'
  · exact absurd h' h

/-- A POST only changes the settings. -/
theorem run_post {sort : List String → List String} {o : Opts} {print : Message δ → GoM Unit}
    {delta : Message δ → GoM (Option β)} (r : Running) (p : Option Doc) (is : List (Event δ)) :
    r.run sort o print delta (.post p :: is) =
      ({ r with conf := (Config.admin r.conf p).1 } : Running).run sort o print delta is := by
  simp only [Running.run, Running.step, bind, Except.bind, pure, Except.pure]
  cases Running.run sort o print delta { r with conf := (Config.admin r.conf p).1 } is <;> rfl

/-- The process with the broker enabled. -/
theorem run_enabled {sort : List String → List String} {o : Opts} {print : Message δ → GoM Unit}
    {delta : Message δ → GoM (Option β)} {ch : Str} (hch : ch ≠ []) (is : List (Event δ)) :
    ∀ (r : Running), r.client = true → r.conf.val .mqttEnable = .bool true → r.conf.val .channel = .str ch →
    (∀ m ∈ messagesOf is, (∃ u, print m = .ok u) ∧ ∃ d, delta m = .ok d) →
    r.run sort o print delta is = .ok ((mappedOf delta (messagesOf is)).map (fun b => ⟨ch, b⟩)) := by
  induction is with
  | nil => intros; rfl
  | cons i is ih =>
    intro r h1 h2 h3 ht
    cases i with
    | post p =>
      have k1 : (Config.admin r.conf p).1.val .mqttEnable = .bool true := by
        rw [admin_keeps (by rw [h2]; decide) p, h2]
      have k2 : (Config.admin r.conf p).1.val .channel = .str ch := by
        rw [admin_keeps (by rw [h3]; simpa [Config.zeroOf] using hch) p, h3]
      have := ih { r with conf := (Config.admin r.conf p).1 } h1 k1 k2 ht
      simp only [Running.run, Running.step, bind, Except.bind, pure, Except.pure, this]
      rfl
    | message m =>
      obtain ⟨hp, d, hd⟩ := ht m (by simp [messagesOf])
      obtain ⟨s, hs⟩ := step_message (sort := sort) (o := o) r hp hd
      have hm : boolOf r.conf .mqttEnable = true := (bool_iff _ _).2 h2
      have hc : strOf r.conf .channel = ch := by unfold strOf; rw [h3]
      have := ih { r with stats := s } h1 h2 h3 (fun m' hm' => ht m' (by simp only [messagesOf, List.filterMap_cons] at hm' ⊢; exact List.mem_cons_of_mem _ hm'))
      simp only [Running.run, hs]
      cases d with
      | none =>
        simp only [bind, Except.bind, this]
        simp [messagesOf, mappedOf, hd, pure, Except.pure]
      | some b =>
        simp only [if_pos hm, if_pos h1, bind, Except.bind, this, hc]
        simp [messagesOf, mappedOf, hd, pure, Except.pure]

/-- A process without a client, once the broker has been asked for. -/
theorem run_asked {sort : List String → List String} {o : Opts} {print : Message δ → GoM Unit}
    {delta : Message δ → GoM (Option β)} (is : List (Event δ)) :
    ∀ (r : Running), r.client = false → r.conf.val .mqttEnable = .bool true →
    (∀ m ∈ messagesOf is, (∃ u, print m = .ok u) ∧ ∃ d, delta m = .ok d) →
    ((∃ p, r.run sort o print delta is = .error p) ↔ ∃ j ∈ is, HasDelta delta j) ∧
      ((∃ l, r.run sort o print delta is = .ok l) → r.run sort o print delta is = .ok []) := by
  induction is with
  | nil => intro r _ _ _; simp [Running.run, pure, Except.pure]
  | cons i is ih =>
    intro r h1 h2 ht
    cases i with
    | post p =>
      have k1 : (Config.admin r.conf p).1.val .mqttEnable = .bool true := by
        rw [admin_keeps (by rw [h2]; decide) p, h2]
      have := ih { r with conf := (Config.admin r.conf p).1 } h1 k1 ht
      have e : r.run sort o print delta (.post p :: is) =
          ({ r with conf := (Config.admin r.conf p).1 } : Running).run sort o print delta is := run_post r p is
      rw [e]
      refine ⟨?_, this.2⟩
      rw [this.1]
      simp [HasDelta]
    | message m =>
      obtain ⟨hp, d, hd⟩ := ht m (by simp [messagesOf])
      obtain ⟨s, hs⟩ := step_message (sort := sort) (o := o) r hp hd
      have hm : boolOf r.conf .mqttEnable = true := (bool_iff _ _).2 h2
      have := ih { r with stats := s } h1 h2 (fun m' hm' => ht m' (by simp only [messagesOf, List.filterMap_cons] at hm' ⊢; exact List.mem_cons_of_mem _ hm'))
      cases d with
      | none =>
        have e : r.run sort o print delta (.message m :: is) = ({ r with stats := s } : Running).run sort o print delta is := by
          simp only [Running.run, hs, bind, Except.bind]
          cases Running.run sort o print delta { r with stats := s } is <;> rfl
        rw [e]
        refine ⟨?_, this.2⟩
        rw [this.1]
        simp [HasDelta, hd]
      | some b =>
        have e : r.run sort o print delta (.message m :: is) = .error .nilCall := by
          simp [Running.run, hs, hm, h1, bind, Except.bind]
        rw [e]
        refine ⟨⟨fun _ => ⟨.message m, by simp, m, b, rfl, hd⟩, fun _ => ⟨_, rfl⟩⟩, ?_⟩
        rintro ⟨l, hl⟩; cases hl

/-- A process without the broker. -/
theorem run_disabled {sort : List String → List String} {o : Opts} {print : Message δ → GoM Unit}
    {delta : Message δ → GoM (Option β)} (is : List (Event δ)) :
    ∀ (r : Running), r.client = false → r.conf.val .mqttEnable = .bool false →
    (∀ m ∈ messagesOf is, (∃ u, print m = .ok u) ∧ ∃ d, delta m = .ok d) →
    ((∃ p, r.run sort o print delta is = .error p) ↔
      ∃ x i y, is = x ++ i :: y ∧ AsksForBroker i ∧ ∃ j ∈ y, HasDelta delta j) ∧
      ((∃ l, r.run sort o print delta is = .ok l) → r.run sort o print delta is = .ok []) := by
  induction is with
  | nil => intro r _ _ _; simp [Running.run, pure, Except.pure]
  | cons i is ih =>
    intro r h1 h2 ht
    have shift : ∀ {r' : Running}, r.run sort o print delta (i :: is) = r'.run sort o print delta is → ¬ AsksForBroker i →
        r'.client = false → r'.conf.val .mqttEnable = .bool false →
        ((∃ p, r.run sort o print delta (i :: is) = .error p) ↔
          ∃ x k y, i :: is = x ++ k :: y ∧ AsksForBroker k ∧ ∃ j ∈ y, HasDelta delta j) ∧
        ((∃ l, r.run sort o print delta (i :: is) = .ok l) → r.run sort o print delta (i :: is) = .ok []) := by
      intro r' e hn k1 k2
      have := ih r' k1 k2 (fun m hm => ht m (by
        cases i with
        | post p => exact hm
        | message m' => simp only [messagesOf, List.filterMap_cons] at hm ⊢; exact List.mem_cons_of_mem _ hm))
      rw [e]
      refine ⟨?_, this.2⟩
      rw [this.1]
      constructor
      · rintro ⟨x, k, y, rfl, h⟩; exact ⟨i :: x, k, y, rfl, h⟩
      · rintro ⟨x, k, y, he, h⟩
        cases x with
        | nil => cases he; exact absurd h.1 hn
        | cons a x => cases he; exact ⟨x, k, y, rfl, h⟩
    cases i with
    | post p =>
      have e : r.run sort o print delta (.post p :: is) =
          ({ r with conf := (Config.admin r.conf p).1 } : Running).run sort o print delta is := run_post r p is
      by_cases hk : AsksForBroker (δ := δ) (.post p)
      · obtain ⟨d, hpd, hi, hv⟩ := hk
        cases hpd
        have k1 : (Config.admin r.conf (some d)).1.val .mqttEnable = .bool true := by
          rw [((Config.C75_rule r.conf (some d)).2 d rfl hi).1 .mqttEnable, h2, if_pos (by rfl), hv]; rfl
        have := run_asked (sort := sort) (o := o) is { r with conf := (Config.admin r.conf (some d)).1 } h1 k1 ht
        rw [e]
        refine ⟨?_, this.2⟩
        rw [this.1]
        constructor
        · intro h; exact ⟨[], _, is, rfl, ⟨d, rfl, hi, hv⟩, h⟩
        · rintro ⟨x, k, y, he, _, j, hj, hd⟩
          refine ⟨j, ?_, hd⟩
          cases x with
          | nil => cases he; exact hj
          | cons a x => cases he; simp [hj]
      · refine shift e hk h1 ?_
        rcases admin_val r.conf p .mqttEnable with h' | ⟨_, d, rfl, hi, v, hv, h'⟩
        · exact h'.trans h2
        · cases v with
          | bool b =>
            cases b with
            | false => exact h'
            | true => exact absurd ⟨d, rfl, hi, hv⟩ hk
          | str x => exact absurd ⟨.mqttEnable, .str x, hv, rfl, rfl⟩ hi
          | int x => exact absurd ⟨.mqttEnable, .int x, hv, rfl, rfl⟩ hi
    | message m =>
      obtain ⟨hp, d, hd⟩ := ht m (by simp [messagesOf])
      obtain ⟨s, hs⟩ := step_message (sort := sort) (o := o) r hp hd
      have hm : boolOf r.conf .mqttEnable = false := by unfold boolOf; rw [h2]
      refine shift (r' := { r with stats := s }) ?_ (by rintro ⟨d, h, _⟩; cases h) h1 h2
      simp only [Running.run, hs, hm]
      cases d <;>
      · simp only [bind, Except.bind, if_false, Bool.false_eq_true]
        cases Running.run sort o print delta { r with stats := s } is <;> rfl

/-- Settings of a file that was read. -/
theorem started_val {w : World} {a : Args} (h : Ready w a) {s : Setting} (hs : Config.inToml s = true) (hl : s ≠ .logLevel) :
    (sysconf w a).val s = Config.defaultVal s ∨
      ((sysconf w a).val s ≠ Config.zeroOf s ∧ ((sysconf w a).val s).sameType (Config.zeroOf s) = true) := by
  rw [sysconf_val w a hl]
  have hc := h.config
  cases hd : w.file a.configFile with
  | none => rw [hd] at hc; cases hc
  | some d =>
    rw [hd] at hc
    rw [(Config.C73_value d hc).1 s hs]
    cases hv : d.val s with
    | none => left; rfl
    | some v =>
      simp only
      split
      · left; rfl
      · rename_i hz
        refine .inr ⟨hz, ?_⟩
        cases hx : v.sameType (Config.zeroOf s) with
        | true => rfl
        | false =>
          have := (Config.C73_error (some d)).1.2 (by
            rintro _ ⟨⟩
            exact ⟨s, v, hv, hs, hx⟩)
          rw [this] at hc; cases hc

theorem started_channel {w : World} {a : Args} (h : Ready w a) :
    ∃ ch, ch ≠ [] ∧ (sysconf w a).val .channel = .str ch := by
  rcases started_val h (s := .channel) (by decide) (by decide) with h' | ⟨h1, h2⟩
  · exact ⟨_, by decide +kernel, h'⟩
  · cases hv : (sysconf w a).val .channel with
    | str ch => rw [hv] at h1; exact ⟨ch, by rintro rfl; exact h1 rfl, rfl⟩
    | bool _ => rw [hv] at h2; cases h2
    | int _ => rw [hv] at h2; cases h2

theorem started_enable {w : World} {a : Args} (h : Ready w a) :
    ∃ b, (sysconf w a).val .mqttEnable = .bool b := by
  rcases started_val h (s := .mqttEnable) (by decide) (by decide) with h' | ⟨h1, h2⟩
  · exact ⟨_, h'⟩
  · cases hv : (sysconf w a).val .mqttEnable with
    | bool b => exact ⟨b, rfl⟩
    | str _ => rw [hv] at h2; cases h2
    | int _ => rw [hv] at h2; cases h2

/-! ## Theorems -/

variable {sort : List String → List String} {o : Opts} {print : Message δ → GoM Unit} {delta : Message δ → GoM (Option β)}

/-- **C110** (broker enabled in the file): whatever is posted in between, exactly the deltas of the messages are
published, in order, under the topic the process was started with. -/
theorem C110_published {w : World} {a : Args} (h : Ready w a)
    (hb : (Config.readConfig (w.file a.configFile)).1.val .mqttEnable = .bool true) (is : List (Event δ))
    (ht : ∀ m ∈ messagesOf is, (∃ u, print m = .ok u) ∧ ∃ d, delta m = .ok d) :
    ∃ ch, (Config.readConfig (w.file a.configFile)).1.val .channel = .str ch ∧
      (Running.start w a).run sort o print delta is = .ok ((mappedOf delta (messagesOf is)).map (fun b => ⟨ch, b⟩)) := by
  obtain ⟨ch, h1, h2⟩ := started_channel h
  have hb' : (sysconf w a).val .mqttEnable = .bool true := by rw [sysconf_val w a (by decide)]; exact hb
  exact ⟨ch, by rw [← sysconf_val w a (by decide)]; exact h2,
    run_enabled h1 is _ ((bool_iff _ _).2 hb') hb' h2 ht⟩

/-- **C110** (broker not enabled in the file), the exact inputs that end the process: a POST that enables the broker
and, after it, a message with a delta.  Nothing is ever published. -/
theorem C110_crash_iff {w : World} {a : Args} (h : Ready w a)
    (hb : (Config.readConfig (w.file a.configFile)).1.val .mqttEnable ≠ .bool true) (is : List (Event δ))
    (ht : ∀ m ∈ messagesOf is, (∃ u, print m = .ok u) ∧ ∃ d, delta m = .ok d) :
    ((∃ p, (Running.start w a).run sort o print delta is = .error p) ↔
      ∃ x i y, is = x ++ i :: y ∧ AsksForBroker i ∧ ∃ j ∈ y, HasDelta delta j) ∧
    ∀ l, (Running.start w a).run sort o print delta is = .ok l → l = [] := by
  obtain ⟨b, hb'⟩ := started_enable h
  cases b with
  | true => rw [sysconf_val w a (by decide)] at hb'; exact absurd hb' hb
  | false =>
    have hc : boolOf (sysconf w a) .mqttEnable = false := by unfold boolOf; rw [hb']
    have := run_disabled (sort := sort) (o := o) is (Running.start w a) hc hb' ht
    refine ⟨this.1, fun l hl => ?_⟩
    have e := this.2 ⟨l, hl⟩
    rw [hl] at e
    exact Except.ok.inj e

/-- **C110** is false: the page for the settings can end the process.  With the configuration the page itself posts
when the broker is ticked, the next message with a delta panics. -/
theorem C110_false (m : Message δ) {b : β} (hp : ∃ u, print m = .ok u) (hd : delta m = .ok (some b)) :
    ∃ (w : World) (a : Args) (d : Doc), Ready w a ∧ d.val .mqttEnable = some (.bool true) ∧
      (Running.start w a).run sort o print delta [.post (some d), .message m] = .error .nilCall := by
  let d := fileOf [(.mqttEnable, .bool true)]
  have hr : Ready (exampleWorld (fileOf [])) .initial := ⟨⟨rfl, rfl⟩, by decide +kernel, by decide +kernel, fun _ => rfl⟩
  refine ⟨exampleWorld (fileOf []), .initial, d, hr, rfl, ?_⟩
  let r : Running := { Running.start (exampleWorld (fileOf [])) .initial with
    conf := (Config.admin (sysconf (exampleWorld (fileOf [])) .initial) (some d)).1 }
  obtain ⟨s, hs⟩ := step_message (sort := sort) (o := o) r hp hd
  have h1 : boolOf r.conf .mqttEnable = true := by decide +kernel
  have h2 : r.client = false := by decide +kernel
  rw [run_post]
  show r.run sort o print delta [.message m] = _
  simp [Running.run, hs, h1, h2, bind, Except.bind]

/-! ### The hypotheses can be met -/

/-- A POST that enables the broker, and one that does not. -/
example : AsksForBroker (δ := Unit) (.post (some (fileOf [(.mqttEnable, .bool true), (.mqttPort, .int 1883)]))) ∧
    ¬ AsksForBroker (δ := Unit) (.post (some (fileOf [(.mqttPort, .int 1883)]))) := by
  constructor
  · refine ⟨_, rfl, ?_, rfl⟩
    rw [← Config.decode_none_iff]
    have : (Config.decode (fun _ => true) (fileOf [(.mqttEnable, .bool true), (.mqttPort, .int 1883)])
      Config.settings).isSome = true := by decide +kernel
    intro h; rw [h] at this; cases this
  · rintro ⟨d, h, _, hv⟩
    cases h
    revert hv; decide +kernel

/-- With the broker in the file, a message is published under the topic of the file. -/
example : ((Running.start (exampleWorld exampleFile) .initial).run (δ := Nat) (β := Nat) id Opts.default (fun _ => .ok ())
    (fun m => .ok (some m.body))
    [.message ⟨⟨0, 127250, 0, 255, 0, ⟨[], []⟩⟩, 7⟩, .post (some (fileOf [(.channel, .str (bs "other"))])),
      .message ⟨⟨0, 127250, 0, 255, 0, ⟨[], []⟩⟩, 8⟩]) = .ok [⟨bs "signalk/argo", 7⟩, ⟨bs "signalk/argo", 8⟩] := by
  decide +kernel

end Argo.Main
