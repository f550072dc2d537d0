import Verif.Main.Broker
import Verif.Json.Delta

set_option autoImplicit false

/-! # C110 with the shipped table and mapping file: what is published is the JSON of the deltas -/

namespace Argo.Json

open Argo Argo.Main
open Argo.Nmea2k (Val Parsed)
open Argo.Signalk (Str bs)

/-- The events bring messages made by `ParsePacket` or from a file, each with some iteration order of its map. -/
def GenuineEvents (is : List (Event Body)) : Prop :=
  ∀ m ∈ messagesOf is, Genuine (parsedOf m) ∧ m.body.order.Perm m.body.data

/-- What is published of parsed messages, in order: for each of which the mapping file reports something, one JSON text, its delta (a
message whose delta cannot be encoded is left out). -/
inductive Published (enc : Enc) (denv : Signalk.Env Val) : List Parsed → List (List Byte) → Prop where
  | nil : Published enc denv [] []
  | quiet {p ps bs} : Reports denv p [] → Published enc denv ps bs → Published enc denv (p :: ps) bs
  | lost {p ps bs values now} : Reports denv p values → values ≠ [] →
      marshal enc now [⟨p.header.pgn, p.header.source, values⟩] = none → Published enc denv ps bs → Published enc denv (p :: ps) bs
  | sent {p ps b bs values now j} : Reports denv p values → values ≠ [] →
      DeltaJson enc now p.header.pgn p.header.source values j → (∀ j', Reads b j' ↔ j' = j) →
      Published enc denv ps bs → Published enc denv (p :: ps) (b :: bs)

theorem published_of {enc : Enc} (hs : Sane enc) {denv : Signalk.Env Val} {ps : List Parsed} {bs : List (List Byte)}
    (h : Broadcasts denv (marshal enc) ps bs) : Published enc denv ps bs := by
  induction h with
  | nil => exact .nil
  | quiet h1 _ ih => exact .quiet h1 ih
  | lost h1 h2 h3 _ ih => exact .lost h1 h2 h3 ih
  | sent h1 h2 h3 _ ih =>
    obtain ⟨j, h4, h5⟩ := C104_delta hs h3
    exact .sent h1 h2 h4 h5 ih

section
variable {sort : List String → List String} {opts : Opts} {out : Outputs} {verbose : Bool} {denv : Signalk.Env Val} {enc : Enc}

theorem events_ok {is : List (Event Body)} (hg : GenuineEvents is) : ∀ m ∈ messagesOf is,
    (∃ u, (shippedProgram sort opts out verbose denv (marshal enc)).print m = .ok u) ∧
    ∃ d, (shippedProgram sort opts out verbose denv (marshal enc)).delta m = .ok d := fun m hm =>
  ⟨⟨(), (shipped_ok (hg m hm).1 (hg m hm).2).1⟩, (shipped_ok (hg m hm).1 (hg m hm).2).2⟩

theorem mapped_broadcasts {ms : List (Message Body)} (hg : ∀ m ∈ ms, Genuine (parsedOf m) ∧ m.body.order.Perm m.body.data) :
    Broadcasts denv (marshal enc) (ms.map parsedOf)
      (mappedOf (shippedProgram sort opts out verbose denv (marshal enc)).delta ms) := by
  have e : mappedOf (shippedProgram sort opts out verbose denv (marshal enc)).delta ms =
      deltasOf (shippedProgram sort opts out verbose denv (marshal enc)).delta ms := by
    unfold mappedOf deltasOf
    congr 1
    funext m
    rcases (shippedProgram sort opts out verbose denv (marshal enc)).delta m with _ | _ | _ <;> rfl
  rw [e]
  exact shipped_broadcasts hg

theorem parts_nil {α : Type} {vs : List (Str × Signalk.Value α)} (h1 : Signalk.Spec.plainPart vs = [])
    (h2 : Signalk.Spec.textPart vs = []) : vs = [] := by
  match vs with
  | [] => rfl
  | (p, .plain v) :: vs => exact absurd (Signalk.mem_plainPart.mpr (List.mem_cons_self ..)) (by rw [h1]; exact List.not_mem_nil)
  | (p, .text v) :: vs => exact absurd (Signalk.mem_textPart.mpr (List.mem_cons_self ..)) (by rw [h2]; exact List.not_mem_nil)

/-- Whether anything is reported does not depend on how the texts of times are made. -/
theorem reported_nil {α : Type} {env : Signalk.Env α} {rpt : Nat} {msg : Signalk.Msg α} {v v' : List (Str × Signalk.Value α)}
    (h : Signalk.Reported env rpt msg v) (h' : Signalk.Reported env rpt msg v') (e : v = []) : v' = [] := by
  subst e
  refine parts_nil (h'.1.trans h.1.symm) ?_
  by_cases hp : msg.pgn = 126992
  · rcases h.2.1 hp with ⟨_, hn⟩ | ⟨vd, vt, h3, h4, h5⟩
    · rcases h'.2.1 hp with ⟨h6, _⟩ | ⟨vd, vt, h3, h4, _⟩
      · exact h6
      · exact absurd ⟨vd, vt, h3, h4⟩ hn
    · exfalso
      rcases h5 with ⟨_, _, _, _, _, h6, _⟩ | ⟨_, h6⟩
      · cases h6
      · have : msg.data.length = 0 := by simpa [Signalk.Spec.textPart] using congrArg List.length h6.symm
        have h3 := h3.1
        rw [List.length_eq_zero_iff.mp this] at h3
        cases h3
  · exact h'.2.2 hp

/-- The mapping file reports something of the message. -/
def Talks (denv : Signalk.Env Val) : Event Body → Prop
  | .post _ => False
  | .message m => ∃ d values, Nmea2k.Table.pgnList[m.body.index]? = some d ∧
      Signalk.Reported denv d.repeatingFields (Signalk.toMsg ⟨m.header, m.body.index, m.body.order⟩) values ∧ values ≠ []

theorem hasDelta_iff (hl : Local enc) {is : List (Event Body)} {i : Event Body} (hi : i ∈ is) (hg : GenuineEvents is)
    (hd : ∀ m ∈ messagesOf is, ∃ env raw, Nmea2k.ParsePacket Nmea2k.Table.pgnList env raw (.ok (parsedOf m))) :
    HasDelta (shippedProgram sort opts out verbose denv (marshal enc)).delta i ↔ Talks denv i := by
  cases i with
  | post p => exact ⟨(by rintro ⟨m, b, h, _⟩; cases h), False.elim⟩
  | message m =>
    have hm : m ∈ messagesOf is := List.mem_filterMap.mpr ⟨_, hi, rfl⟩
    obtain ⟨hgen, hperm⟩ := hg m hm
    obtain ⟨values, h1, h2⟩ := shipped_reports_at (sort := sort) (opts := opts) (out := out) (verbose := verbose)
      (denv := denv) (marshal := marshal enc) hgen hperm
    obtain ⟨env, raw, hpp⟩ := hd m hm
    obtain ⟨d, hd, hrep⟩ := h1
    have key : Reports denv (parsedOf m) values := ⟨d, m.body.order, hd, hperm, hrep⟩
    constructor
    · rintro ⟨m', b, h, hb⟩
      cases h
      refine ⟨d, values, hd, hrep, ?_⟩
      rintro rfl
      rw [h2, if_pos rfl] at hb
      cases hb
    · rintro ⟨d', v', hd', hrep', hne⟩
      have : d' = d := Option.some.inj (hd'.symm.trans hd)
      subst this
      have hv : values ≠ [] := fun e => hne (reported_nil hrep hrep' e)
      obtain ⟨b, hb⟩ := C104_total hl hpp key m.body.now m.header.pgn m.header.source
      exact ⟨m, b, rfl, by rw [h2, if_neg hv, hb]⟩

/-! ## Theorems -/

/-- **C110** with the shipped files, the broker enabled in the configuration: whatever is posted in between, exactly the deltas of the
messages are published, each a JSON text with the PGN, the source and the values reported, in order, under the topic of the
configuration file. -/
theorem C110_shipped (hs : Sane enc) {w : World} {a : Args} (h : Ready w a)
    (hb : (Config.readConfig (w.file a.configFile)).1.val .mqttEnable = .bool true) {is : List (Event Body)}
    (hg : GenuineEvents is) :
    ∃ ch l, (Config.readConfig (w.file a.configFile)).1.val .channel = .str ch ∧
      (Running.start w a).run sort opts (shippedProgram sort opts out verbose denv (marshal enc)).print
        (shippedProgram sort opts out verbose denv (marshal enc)).delta is = .ok (l.map fun b => ⟨ch, b⟩) ∧
      Published enc denv ((messagesOf is).map parsedOf) l := by
  obtain ⟨ch, h1, h2⟩ := C110_published (sort := sort) (o := opts) h hb is
    (events_ok (sort := sort) (opts := opts) (out := out) (verbose := verbose) (denv := denv) (enc := enc) hg)
  exact ⟨ch, _, h1, h2, published_of hs (mapped_broadcasts hg)⟩

/-- **C110** with the shipped files, the broker not enabled in the configuration: the process ends exactly if a POST enables the
broker and later a message comes of which the mapping file reports something; nothing is published. -/
theorem C110_shipped_crash (hl : Local enc) {w : World} {a : Args} (h : Ready w a)
    (hb : (Config.readConfig (w.file a.configFile)).1.val .mqttEnable ≠ .bool true) {is : List (Event Body)}
    (hg : GenuineEvents is)
    (hd : ∀ m ∈ messagesOf is, ∃ env raw, Nmea2k.ParsePacket Nmea2k.Table.pgnList env raw (.ok (parsedOf m))) :
    ((∃ p, (Running.start w a).run sort opts (shippedProgram sort opts out verbose denv (marshal enc)).print
        (shippedProgram sort opts out verbose denv (marshal enc)).delta is = .error p) ↔
      ∃ x i y, is = x ++ i :: y ∧ AsksForBroker i ∧ ∃ j ∈ y, Talks denv j) ∧
    ∀ l, (Running.start w a).run sort opts (shippedProgram sort opts out verbose denv (marshal enc)).print
        (shippedProgram sort opts out verbose denv (marshal enc)).delta is = .ok l → l = [] := by
  obtain ⟨h1, h2⟩ := C110_crash_iff (sort := sort) (o := opts) h hb is
    (events_ok (sort := sort) (opts := opts) (out := out) (verbose := verbose) (denv := denv) (enc := enc) hg)
  refine ⟨h1.trans ?_, h2⟩
  constructor
  · rintro ⟨x, i, y, e, ha, j, hj, hx⟩
    exact ⟨x, i, y, e, ha, j, hj, (hasDelta_iff hl (by rw [e]; simp [hj]) hg hd).mp hx⟩
  · rintro ⟨x, i, y, e, ha, j, hj, hx⟩
    exact ⟨x, i, y, e, ha, j, hj, (hasDelta_iff hl (by rw [e]; simp [hj]) hg hd).mpr hx⟩

end

/-! ### The hypotheses can be met -/

/-- A POST that enables the broker, then the heading of the sample frame. -/
def brokerEvents : List (Event Body) := [.post (some (fileOf [(.mqttEnable, .bool true)])), .message runMsg]

theorem brokerEvents_genuine : GenuineEvents brokerEvents := by
  intro m hm
  have : m = runMsg := by simpa [messagesOf, brokerEvents] using hm
  subst this
  exact ⟨.inl ⟨runTables, runRaw, runMsg_parsed⟩, (List.reverse_perm runMsg.body.data : (runMsg.body.data.reverse).Perm _)⟩

theorem brokerEvents_decoded : ∀ m ∈ messagesOf brokerEvents,
    ∃ env raw, Nmea2k.ParsePacket Nmea2k.Table.pgnList env raw (.ok (parsedOf m)) := by
  intro m hm
  have : m = runMsg := by simpa [messagesOf, brokerEvents] using hm
  subst this
  exact ⟨runTables, runRaw, runMsg_parsed⟩

/-- With the broker in the file the heading is published, as JSON and under the topic of the file. -/
example : Ready (exampleWorld exampleFile) .initial ∧
    (Config.readConfig ((exampleWorld exampleFile).file Args.initial.configFile)).1.val .mqttEnable = .bool true ∧
    (Running.start (exampleWorld exampleFile) .initial).run (List.insertionSort (· ≤ ·)) Opts.default jsonProgram.print jsonProgram.delta
      brokerEvents = .ok [⟨bs "signalk/argo", runJson⟩] :=
  ⟨⟨⟨rfl, rfl⟩, by decide +kernel, by decide +kernel, fun _ => rfl⟩, by decide +kernel, by decide +kernel⟩

/-- Without it, the same inputs end the process. -/
example : ∃ p, (Running.start (exampleWorld (fileOf [])) .initial).run (List.insertionSort (· ≤ ·)) Opts.default jsonProgram.print
    jsonProgram.delta brokerEvents = .error p := by
  refine ⟨.nilCall, ?_⟩
  decide +kernel

/-- They meet the hypotheses of `C110_shipped_crash`: the mapping file reports the heading. -/
example : Talks runEnv (.message runMsg) := by
  have h := (C110_shipped_crash (sort := List.insertionSort (· ≤ ·)) (opts := Opts.default) (out := ⟨true, false⟩) (verbose := true)
    (denv := runEnv) example_local (w := exampleWorld (fileOf [])) (a := .initial)
    ⟨⟨rfl, rfl⟩, by decide +kernel, by decide +kernel, fun _ => rfl⟩ (by decide +kernel) brokerEvents_genuine brokerEvents_decoded).1.mp
    ⟨.nilCall, by decide +kernel⟩
  obtain ⟨x, i, y, e, ⟨d, rfl, _⟩, j, hj, ht⟩ := h
  have : j ∈ brokerEvents := by rw [e]; simp [hj]
  rcases List.mem_cons.mp this with rfl | h
  · exact ht.elim
  · rw [List.mem_singleton.mp h] at ht; exact ht

end Argo.Json
