import Verif.Config.Model
import Mathlib.Tactic.Push
import Mathlib.Tactic.ByContra

set_option autoImplicit false

/-!
# C73, C74, C75: reading and changing the configuration
-/

namespace Argo.Config

open Argo

/-! ## C73 -/

/-- The parts of the UUID, which are computed and never read. -/
def isPart : Setting → Bool
  | .uuid0 | .uuid1 | .uuid2 | .uuid3 | .uuid4 => true
  | _ => false

theorem settings_complete (s : Setting) : s ∈ settings := by cases s <;> decide

theorem setParts_other (c : Conf) (s : Setting) (h : isPart s = false) :
    (setParts c).val s = c.val s := by
  unfold setParts
  split
  · split
    · cases s <;> simp [isPart] at h ⊢
    · rfl
  · rfl

theorem setParts_interfaces (c : Conf) : (setParts c).interfaces = c.interfaces := by
  unfold setParts
  split
  · split <;> rfl
  · rfl

/-- A document has a value of the wrong type for a field that is read. -/
def Illtyped (visible : Setting → Bool) (d : Doc) : Prop :=
  ∃ s v, d.val s = some v ∧ visible s = true ∧ v.sameType (zeroOf s) = false

theorem decode_none_iff (visible : Setting → Bool) (d : Doc) :
    decode visible d settings = none ↔ Illtyped visible d := by
  unfold decode Illtyped
  split
  · rename_i h
    simp only [List.all_eq_true] at h
    simp only [reduceCtorEq, false_iff, not_exists, not_and, Bool.not_eq_false]
    intro s v hv hs
    have := h s (settings_complete s)
    rw [hv] at this
    simpa [hs] using this
  · rename_i h
    simp only [List.all_eq_true, not_forall] at h
    obtain ⟨s, _, h⟩ := h
    simp only [true_iff]
    cases hv : d.val s with
    | none => rw [hv] at h; simp at h
    | some v =>
      rw [hv] at h
      simp only [Bool.or_eq_true, Bool.not_eq_eq_eq_not, Bool.not_true, not_or, Bool.not_eq_false,
        Bool.not_eq_true] at h
      exact ⟨s, v, hv, h.1, h.2⟩

theorem decode_some (visible : Setting → Bool) (d : Doc) (h : ¬ Illtyped visible d) :
    decode visible d settings =
      some ⟨fun s => if visible s then (d.val s).getD (zeroOf s) else zeroOf s, d.interfaces⟩ := by
  rw [← decode_none_iff] at h
  unfold decode at h ⊢
  split
  · rfl
  · rename_i hc; simp [hc] at h

/-- **C73** (errors): a file that cannot be read or parsed, or gives a field a value of the wrong type,
yields an error and exactly the defaults; any other file yields no error. -/
theorem C73_error (d : Option Doc) :
    ((readConfig d).2 = false ↔ ∀ doc, d = some doc → Illtyped inToml doc) ∧
      ((readConfig d).2 = false → (readConfig d).1 = defaultConfig) := by
  cases d with
  | none => simp [readConfig]
  | some d =>
    by_cases h : Illtyped inToml d
    · have := (decode_none_iff inToml d).2 h
      simp [readConfig, this, h]
    · simp [readConfig, decode_some _ _ h, h]

/-- **C73** (exact rule): for every file read without error, a setting has the value of the file when the
file has one that is not the zero value, and otherwise the default; the settings not read from the file
other than the UUID parts have the default, and the interfaces are those of the file. -/
theorem C73_value (d : Doc) (h : (readConfig (some d)).2 = true) :
    (∀ s, inToml s = true → (readConfig (some d)).1.val s =
      match d.val s with
      | some v => if v = zeroOf s then defaultVal s else v
      | none => defaultVal s) ∧
    (readConfig (some d)).1.val .certificate = .str [] ∧
    (readConfig (some d)).1.interfaces = d.interfaces := by
  have hi : ¬ Illtyped inToml d := by
    intro hi
    have := (C73_error (some d)).1.2 (by rintro _ ⟨⟩; exact hi)
    rw [this] at h; cases h
  simp only [readConfig, decode_some _ _ hi]
  refine ⟨fun s hs => ?_, ?_, ?_⟩
  · rw [setParts_other _ _ (by cases s <;> simp [inToml, isPart] at hs ⊢)]
    simp only [merge, defaultConfig, hs, if_true]
    cases d.val s with
    | none => simp
    | some v => simp
  · rw [setParts_other _ _ rfl]
    simp [merge, defaultConfig, inToml, defaultVal, zeroOf]
  · rw [setParts_interfaces]
    simp [merge, defaultConfig]

/-- **C73** (partial): a value set in the file is kept exactly when it is not the zero value, or the
default is the zero value anyway, and a value not set in the file is the default.  Missing: explicit zero
values of the other settings, which `C73_false` shows are replaced by the default. -/
theorem C73_defaults_partial (d : Doc) (h : (readConfig (some d)).2 = true) (s : Setting)
    (hs : inToml s = true) :
    (d.val s = none → (readConfig (some d)).1.val s = defaultVal s) ∧
    (∀ v, d.val s = some v →
      ((readConfig (some d)).1.val s = v ↔ (v ≠ zeroOf s ∨ defaultVal s = zeroOf s))) := by
  have hv := (C73_value d h).1 s hs
  refine ⟨fun h0 => by rw [hv, h0], fun v h1 => ?_⟩
  rw [hv, h1]
  simp only
  split
  · rename_i hz; subst hz; simp
  · rename_i hz; simp [hz]

/-- A file that only says what is asked. -/
def docOf (l : List (Setting × Scalar)) : Doc := ⟨fun s => (l.find? (·.1 = s)).map Prod.snd, []⟩

/-- **C73** is false: a file that disables the web server and TLS for MQTT is read without error, and both
come out enabled; a port 0 becomes 8080. -/
theorem C73_false :
    ∃ d : Doc, d.val .enableWebsockets = some (.bool false) ∧ d.val .mqttUseTls = some (.bool false) ∧
      d.val .serverPort = some (.int 0) ∧ (readConfig (some d)).2 = true ∧
      (readConfig (some d)).1.val .enableWebsockets = .bool true ∧
      (readConfig (some d)).1.val .mqttUseTls = .bool true ∧
      (readConfig (some d)).1.val .serverPort = .int 8080 :=
  ⟨docOf [(.enableWebsockets, .bool false), (.mqttUseTls, .bool false), (.serverPort, .int 0)],
    by decide +kernel⟩

/-- **C73** (exactly which settings are affected): the settings whose explicit zero value is lost are the
twelve with a default. -/
theorem C73_affected (s : Setting) :
    (∃ d : Doc, ∃ v, (readConfig (some d)).2 = true ∧ inToml s = true ∧ d.val s = some v ∧
        (readConfig (some d)).1.val s ≠ v) ↔
      s ∈ [Setting.logLevel, .mapFile, .assetPath, .enableWebsockets, .serverPort, .mqttUseTls, .mqttHost,
        .mqttPort, .clientId, .username, .password, .channel] := by
  constructor
  · rintro ⟨d, v, h, hs, hv, hne⟩
    have := ((C73_defaults_partial d h s hs).2 v hv).not.1 hne
    push Not at this
    have h2 := this.2
    clear this hne hv hs h
    revert h2
    cases s <;> decide
  · intro hm
    refine ⟨docOf [(s, zeroOf s)], zeroOf s, ?_, ?_, ?_, ?_⟩
    all_goals (revert hm; cases s <;> decide +kernel)

/-- The documented defaults; every other setting has none. -/
def documented : List (Setting × Scalar) :=
  [(.logLevel, .str (Signalk.bs "INFO")), (.mapFile, .str (Signalk.bs "map.xml")),
   (.assetPath, .str (Signalk.bs "./assets")), (.enableWebsockets, .bool true), (.serverPort, .int 8080),
   (.mqttUseTls, .bool true), (.mqttHost, .str (Signalk.bs "localhost")), (.mqttPort, .int 8883),
   (.clientId, .str (Signalk.bs "argo")), (.username, .str (Signalk.bs "signalk")),
   (.password, .str (Signalk.bs "signalk")), (.channel, .str (Signalk.bs "signalk/argo"))]

/-- **C73** (the defaults): whatever else a file sets, a setting it does not set has its documented default,
and one without default is empty, 0 or false; with no readable file at all, so has every setting. -/
theorem C73_documented (s : Setting) (hs : inToml s = true) :
    (∀ d : Doc, (readConfig (some d)).2 = true → d.val s = none →
      (∀ v, (s, v) ∈ documented → (readConfig (some d)).1.val s = v) ∧
      ((∀ v, (s, v) ∉ documented) →
        (readConfig (some d)).1.val s ∈ [Scalar.str [], .int 0, .bool false])) ∧
    (∀ d, (readConfig d).2 = false →
      (∀ v, (s, v) ∈ documented → (readConfig d).1.val s = v) ∧
      ((∀ v, (s, v) ∉ documented) → (readConfig d).1.val s ∈ [Scalar.str [], .int 0, .bool false])) := by
  have key : (∀ v, (s, v) ∈ documented → defaultVal s = v) ∧
      ((∀ v, (s, v) ∉ documented) → defaultVal s ∈ [Scalar.str [], .int 0, .bool false]) := by
    clear hs
    constructor
    · intro v hv
      have : ∀ e ∈ documented, defaultVal e.1 = e.2 := by decide +kernel
      exact this (s, v) hv
    · intro h
      have hall : ∀ s ∈ settings, (∃ e ∈ documented, e.1 = s) ∨
          defaultVal s ∈ [Scalar.str [], .int 0, .bool false] := by decide +kernel
      have hm : s ∈ settings := by cases s <;> decide
      rcases hall s hm with ⟨e, he, rfl⟩ | h'
      · exact absurd he (h e.2)
      · exact h'
  refine ⟨fun d h h0 => ?_, fun d h => ?_⟩
  · rw [(C73_defaults_partial d h s hs).1 h0]; exact key
  · rw [(C73_error d).2 h]; exact key

-- non-vacuity: a file with values, zero values and missing values
example :
    let d := docOf [(.serverPort, .int 80), (.mqttEnable, .bool true), (.year, .int 0), (.listenOn, .str [])]
    (readConfig (some d)).2 = true ∧ (readConfig (some d)).1.val .serverPort = .int 80 ∧
      (readConfig (some d)).1.val .mqttEnable = .bool true ∧ (readConfig (some d)).1.val .year = .int 0 ∧
      (readConfig (some d)).1.val .mqttPort = .int 8883 := by decide +kernel
example : (readConfig (some (docOf [(.serverPort, .str [1])]))).2 = false := by decide +kernel

/-! ## C74 -/

/-- The five parts exposed. -/
def parts (c : Conf) : List Scalar := [c.val .uuid0, c.val .uuid1, c.val .uuid2, c.val .uuid3, c.val .uuid4]

/-- Joining with dashes. -/
def joinDash : List Str → Str
  | [] => []
  | [p] => p
  | p :: q :: ps => p ++ 45 :: joinDash (q :: ps)

theorem splitDash_ne_nil (s : Str) : splitDash s ≠ [] := by
  cases s with
  | nil => simp [splitDash]
  | cons c cs =>
    unfold splitDash
    split
    · simp
    · split <;> simp

theorem joinDash_cons (p : Str) (ps : List Str) (h : ps ≠ []) :
    joinDash (p :: ps) = p ++ 45 :: joinDash ps := by
  cases ps with
  | nil => exact absurd rfl h
  | cons q qs => rfl

theorem joinDash_splitDash (s : Str) : joinDash (splitDash s) = s := by
  induction s with
  | nil => rfl
  | cons c cs ih =>
    unfold splitDash
    split
    · rename_i h
      rw [joinDash_cons _ _ (splitDash_ne_nil cs), ih, h]; rfl
    · split
      · rename_i p ps hp
        rw [hp] at ih
        cases ps with
        | nil => simp only [joinDash] at ih ⊢; rw [ih]
        | cons q qs => simp only [joinDash] at ih ⊢; rw [List.cons_append, ih]
      · rename_i hp; exact absurd hp (splitDash_ne_nil cs)

theorem splitDash_noDash (s : Str) : ∀ p ∈ splitDash s, (45 : UInt8) ∉ p := by
  induction s with
  | nil => simp [splitDash]
  | cons c cs ih =>
    unfold splitDash
    split
    · intro p hp
      rcases List.mem_cons.1 hp with rfl | hp
      · simp
      · exact ih p hp
    · rename_i hc
      split
      · rename_i q qs hq
        rw [hq] at ih
        intro p hp
        rcases List.mem_cons.1 hp with rfl | hp
        · have := ih q (by simp)
          simp only [List.mem_cons, not_or]
          exact ⟨fun h => hc h.symm, this⟩
        · exact ih p (by simp [hp])
      · rename_i hp; exact absurd hp (splitDash_ne_nil cs)

theorem splitDash_length (s : Str) : (splitDash s).length = s.count 45 + 1 := by
  induction s with
  | nil => rfl
  | cons c cs ih =>
    unfold splitDash
    split
    · rename_i h; subst h; simp [ih]
    · rename_i h
      split
      · rename_i q qs hq
        rw [hq] at ih
        rw [List.count_cons_of_ne h, ← ih]; rfl
      · rename_i hp; exact absurd hp (splitDash_ne_nil cs)

theorem splitDash_append (p : Str) (hp : (45 : UInt8) ∉ p) (s : Str) :
    splitDash (p ++ 45 :: s) = p :: splitDash s := by
  induction p with
  | nil => simp [splitDash]
  | cons c cs ih =>
    simp only [List.mem_cons, not_or] at hp
    have hc : c ≠ 45 := fun h => hp.1 h.symm
    simp [splitDash, hc, ih hp.2]

theorem splitDash_plain (p : Str) (hp : (45 : UInt8) ∉ p) : splitDash p = [p] := by
  induction p with
  | nil => rfl
  | cons c cs ih =>
    simp only [List.mem_cons, not_or] at hp
    have hc : c ≠ 45 := fun h => hp.1 h.symm
    simp [splitDash, hc, ih hp.2]

theorem parts_setParts (c : Conf) (u : Str) (hu : c.val .uuid = .str u)
    (h0 : parts c = List.replicate 5 (.str [])) :
    parts (setParts c) =
      if u.count 45 = 4 then (splitDash u).map .str else List.replicate 5 (.str []) := by
  have hl := splitDash_length u
  unfold setParts
  rw [hu]
  simp only
  split
  · rename_i a b d e f heq
    rw [heq] at hl ⊢
    have : u.count 45 = 4 := by simp at hl; omega
    simp [parts, this]
  · rename_i hne
    have : u.count 45 ≠ 4 := by
      intro h4
      rw [h4] at hl
      match hs : splitDash u, hl with
      | [a, b, d, e, f], _ => exact hne a b d e f hs
    rw [if_neg this, h0]

/-- The configured UUID of a file. -/
def fileUuid (d : Doc) : Str :=
  match d.val .uuid with
  | some (.str u) => u
  | _ => []

theorem readConfig_parts (d : Doc) (h : (readConfig (some d)).2 = true) :
    (readConfig (some d)).1.val .uuid = .str (fileUuid d) ∧
    parts (readConfig (some d)).1 =
      if (fileUuid d).count 45 = 4 then (splitDash (fileUuid d)).map .str
      else List.replicate 5 (.str []) := by
  have hi : ¬ Illtyped inToml d := by
    intro hi
    have := (C73_error (some d)).1.2 (by rintro _ ⟨⟩; exact hi)
    rw [this] at h; cases h
  have hu : (merge ⟨fun s => if inToml s then (d.val s).getD (zeroOf s) else zeroOf s, d.interfaces⟩
      defaultConfig).val .uuid = .str (fileUuid d) := by
    unfold fileUuid
    simp only [merge, defaultConfig, inToml, if_true, defaultVal, zeroOf]
    cases hd : d.val .uuid with
    | none => simp
    | some v =>
      cases v with
      | str u => by_cases h : u = [] <;> simp [h]
      | int n => exact absurd ⟨.uuid, _, hd, rfl, rfl⟩ hi
      | bool n => exact absurd ⟨.uuid, _, hd, rfl, rfl⟩ hi
  simp only [readConfig, decode_some _ _ hi]
  refine ⟨by rw [setParts_other _ _ rfl, hu], parts_setParts _ _ hu ?_⟩
  simp [parts, merge, defaultConfig, inToml, defaultVal, zeroOf, List.replicate]

/-- **C74**: for every file read without error and every five strings without dashes: they are the exposed
parts exactly when joining them with dashes gives the UUID, provided the UUID has exactly four dashes;
with any other number of dashes all five parts are empty.  Such strings exist and are unique for every
UUID with four dashes. -/
theorem C74_uuid (d : Doc) (h : (readConfig (some d)).2 = true) :
    (readConfig (some d)).1.val .uuid = .str (fileUuid d) ∧
    ((fileUuid d).count 45 = 4 →
      ∃ p0 p1 p2 p3 p4 : Str,
        parts (readConfig (some d)).1 = [.str p0, .str p1, .str p2, .str p3, .str p4] ∧
        fileUuid d = p0 ++ 45 :: p1 ++ 45 :: p2 ++ 45 :: p3 ++ 45 :: p4 ∧
        ∀ p ∈ [p0, p1, p2, p3, p4], (45 : UInt8) ∉ p) ∧
    ((fileUuid d).count 45 ≠ 4 →
      parts (readConfig (some d)).1 = [.str [], .str [], .str [], .str [], .str []]) := by
  obtain ⟨h1, h2⟩ := readConfig_parts d h
  refine ⟨h1, fun h4 => ?_, fun h4 => by rw [h2, if_neg h4]; rfl⟩
  rw [if_pos h4] at h2
  have hl := splitDash_length (fileUuid d)
  have hj := joinDash_splitDash (fileUuid d)
  have hn := splitDash_noDash (fileUuid d)
  rw [h4] at hl
  match hs : splitDash (fileUuid d), hl with
  | [a, b, c, e, f], _ =>
    rw [hs] at h2 hj hn
    refine ⟨a, b, c, e, f, by rw [h2]; rfl, ?_, hn⟩
    rw [← hj]; simp [joinDash]

/-- **C74** (uniqueness): whatever five dash-free strings make up the UUID of the file, those are the
parts exposed. -/
theorem C74_unique (d : Doc) (h : (readConfig (some d)).2 = true) (p0 p1 p2 p3 p4 : Str)
    (hu : d.val .uuid = some (.str (p0 ++ 45 :: (p1 ++ 45 :: (p2 ++ 45 :: (p3 ++ 45 :: p4))))))
    (hp : ∀ p ∈ [p0, p1, p2, p3, p4], (45 : UInt8) ∉ p) :
    parts (readConfig (some d)).1 = [.str p0, .str p1, .str p2, .str p3, .str p4] := by
  obtain ⟨_, h2⟩ := readConfig_parts d h
  simp only [List.forall_mem_cons, List.not_mem_nil, false_implies, implies_true, and_true] at hp
  obtain ⟨a, b, c, e, f⟩ := hp
  have hs : splitDash (fileUuid d) = [p0, p1, p2, p3, p4] := by
    simp only [fileUuid, hu]
    rw [splitDash_append _ a, splitDash_append _ b, splitDash_append _ c, splitDash_append _ e,
      splitDash_plain _ f]
  have hc : (fileUuid d).count 45 = 4 := by
    have := splitDash_length (fileUuid d)
    rw [hs] at this; simp at this; omega
  rw [h2, if_pos hc, hs]; rfl

-- non-vacuity: a UUID, and something else
example : parts (readConfig (some (docOf [(.uuid, .str (Signalk.bs "C0-D7--12-34"))]))).1 =
    [.str (Signalk.bs "C0"), .str (Signalk.bs "D7"), .str [], .str (Signalk.bs "12"),
      .str (Signalk.bs "34")] := by decide +kernel
example : parts (readConfig (some (docOf [(.uuid, .str (Signalk.bs "C0-D7-12-34"))]))).1 =
    [.str [], .str [], .str [], .str [], .str []] := by decide +kernel

/-! ## C75 -/

/-- **C75** (exact rule): a POST that is not JSON of the right types changes and saves nothing; any other
leaves every setting that already has a nonzero value as it is and gives the others the posted value (or
the zero value if none is posted); an interface is taken from the POST only if its name is not in use; and
what is saved is the new running configuration without the certificate flag and the parts of the UUID. -/
theorem C75_rule (sc : Conf) (posted : Option Doc) :
    ((∀ d, posted = some d → Illtyped (fun _ => true) d) → admin sc posted = (sc, none)) ∧
    (∀ d, posted = some d → ¬ Illtyped (fun _ => true) d →
      (∀ s, (admin sc posted).1.val s =
        if sc.val s = zeroOf s then (d.val s).getD (zeroOf s) else sc.val s) ∧
      (∀ k, mapGet (admin sc posted).1.interfaces k =
        match mapGet sc.interfaces k with
        | some i => some i
        | none => mapGet d.interfaces k) ∧
      ∃ saved, (admin sc posted).2 = some saved ∧ saved.interfaces = (admin sc posted).1.interfaces ∧
        ∀ s, saved.val s = if s ∈ [.certificate, .uuid0, .uuid1, .uuid2, .uuid3, .uuid4] then none
          else some ((admin sc posted).1.val s)) := by
  refine ⟨fun h => ?_, ?_⟩
  · cases posted with
    | none => rfl
    | some d =>
      have := (decode_none_iff _ d).2 (h d rfl)
      simp [admin, this]
  · rintro d rfl hi
    simp only [admin, decode_some _ _ hi]
    refine ⟨fun s => by simp [merge], fun k => ?_, _, rfl, rfl, fun s => by cases s <;> rfl⟩
    simp only [merge, mapGet, List.find?_append]
    cases hf : List.find? (fun e => decide (e.1 = k)) sc.interfaces with
    | some i => simp
    | none =>
      simp only [Option.none_or, Option.map_none]
      congr 1
      induction d.interfaces with
      | nil => rfl
      | cons e es ih =>
        by_cases he : e.1 = k
        · subst he
          rw [List.filter_cons_of_pos (by simp [hf])]
          simp
        · rw [List.find?_cons_of_neg (by simpa using he)]
          by_cases hg : (List.find? (fun e' => decide (e'.1 = e.1)) sc.interfaces).isNone
          · rw [List.filter_cons_of_pos (by simpa using hg), List.find?_cons_of_neg (by simpa using he), ih]
          · rw [List.filter_cons_of_neg (by simpa using hg), ih]

/-- **C75** (partial): after an accepted POST, a posted value is the running one exactly when the setting
was unset or already had that value.  Missing: the other settings, for which the posted value is ignored
(`C75_false`). -/
theorem C75_update_partial (sc : Conf) (d : Doc) (hi : ¬ Illtyped (fun _ => true) d) (s : Setting)
    (v : Scalar) (hv : d.val s = some v) :
    (admin sc (some d)).1.val s = v ↔ (sc.val s = zeroOf s ∨ sc.val s = v) := by
  rw [((C75_rule sc (some d)).2 d rfl hi).1 s, hv]
  split
  · rename_i h; simp [h]
  · rename_i h; simp [h]

/-- **C75** is false: with the default configuration running, a POST asking for another log level and
another port is accepted and changes nothing at all in memory, and saves the old values. -/
theorem C75_false :
    ∃ d : Doc, d.val .logLevel = some (.str (Signalk.bs "DEBUG")) ∧ d.val .serverPort = some (.int 80) ∧
      ¬ Illtyped (fun _ => true) d ∧
      (∀ s, (admin defaultConfig (some d)).1.val s = defaultConfig.val s) ∧
      ∃ saved, (admin defaultConfig (some d)).2 = some saved ∧
        saved.val .logLevel = some (.str (Signalk.bs "INFO")) := by
  refine ⟨docOf [(.logLevel, .str (Signalk.bs "DEBUG")), (.serverPort, .int 80)], by decide +kernel,
    by decide +kernel, ?_, ?_⟩
  · rw [← decode_none_iff]
    have : (decode (fun _ => true) (docOf [(.logLevel, .str (Signalk.bs "DEBUG")), (.serverPort, .int 80)])
      settings).isSome = true := by decide +kernel
    intro h; rw [h] at this; cases this
  · refine ⟨fun s => by cases s <;> decide +kernel, _, rfl, by decide +kernel⟩

/-- **C75** (a setting can never be turned off): whatever is posted, however often, a setting with a
nonzero value keeps it. -/
theorem C75_sticky (sc : Conf) (posts : List (Option Doc)) (s : Setting) (h : sc.val s ≠ zeroOf s) :
    (posts.foldl (fun c p => (admin c p).1) sc).val s = sc.val s := by
  suffices H : ∀ (posts : List (Option Doc)) (c : Conf), c.val s = sc.val s →
      (posts.foldl (fun c p => (admin c p).1) c).val s = sc.val s from H posts sc rfl
  intro posts
  induction posts with
  | nil => exact fun c hc => hc
  | cons p ps ih =>
    intro c hc
    refine ih _ ?_
    by_cases hp : ∀ d, p = some d → Illtyped (fun _ => true) d
    · show (admin c p).1.val s = _
      rw [(C75_rule c p).1 hp]; exact hc
    · push Not at hp
      obtain ⟨d, rfl, hd⟩ := hp
      show (admin c (some d)).1.val s = _
      rw [((C75_rule c (some d)).2 d rfl hd).1 s, if_neg (by rw [hc]; exact h), hc]

-- non-vacuity: an unset value does change
example : (admin defaultConfig (some (docOf [(.vesselName, .str (Signalk.bs "Argo"))]))).1.val .vesselName =
    .str (Signalk.bs "Argo") := by decide +kernel

/-! ## C83: save and restart -/

/-- **C83** (save and restart): a configuration that was read from a file, written by WriteConfig and read
again comes out the same, in every field including the UUID parts, and the interfaces. -/
theorem C83_roundtrip (d : Doc) (h : (readConfig (some d)).2 = true) :
    readConfig (some (written (readConfig (some d)).1)) = ((readConfig (some d)).1, true) := by
  have hw : ¬ Illtyped inToml (written (readConfig (some d)).1) := by
    rintro ⟨s, v, hv, hs, ht⟩
    simp only [written, hs, if_true, Option.some.injEq] at hv
    rw [(C73_value d h).1 s hs] at hv
    have hdef : (defaultVal s).sameType (zeroOf s) = true := by cases s <;> rfl
    have hi : ¬ Illtyped inToml d := by
      intro hi
      have := (C73_error (some d)).1.2 (by rintro _ ⟨⟩; exact hi)
      rw [this] at h; cases h
    split at hv
    · rename_i w hw
      split at hv
      · rw [← hv, hdef] at ht; cases ht
      · subst hv; exact hi ⟨s, _, hw, hs, ht⟩
    · rw [← hv, hdef] at ht; cases ht
  have ht : (readConfig (some (written (readConfig (some d)).1))).2 = true := by
    by_contra hf
    rw [Bool.not_eq_true] at hf
    exact hw ((C73_error _).1.1 hf _ rfl)
  have hval : ∀ s, (readConfig (some (written (readConfig (some d)).1))).1.val s =
      (readConfig (some d)).1.val s := by
    have hin : ∀ s, inToml s = true → (readConfig (some (written (readConfig (some d)).1))).1.val s =
      (readConfig (some d)).1.val s := by
      intro s hs
      rw [(C73_value _ ht).1 s hs]
      simp only [written, hs, if_true]
      split
      · rename_i hz
        rw [(C73_value _ h).1 s hs] at hz ⊢
        cases hd : d.val s with
        | none => rfl
        | some v =>
          simp only [hd] at hz ⊢
          split at hz
          · rename_i h'; rw [if_pos h']
          · rename_i h'; exact absurd hz h'
      · rfl
    obtain ⟨hu1, hp1⟩ := readConfig_parts d h
    obtain ⟨hu2, hp2⟩ := readConfig_parts _ ht
    have hu := hin .uuid rfl
    rw [hu1, hu2] at hu
    injection hu with hu
    rw [hu, ← hp1] at hp2
    simp only [parts, List.cons.injEq, and_true] at hp2
    intro s
    by_cases hs : inToml s = true
    · exact hin s hs
    · cases s <;> first | exact absurd rfl hs | skip
      · rw [(C73_value _ ht).2.1, (C73_value _ h).2.1]
      all_goals simp [hp2]
  refine Prod.ext ?_ ht
  have hif : (readConfig (some (written (readConfig (some d)).1))).1.interfaces =
      (readConfig (some d)).1.interfaces := (C73_value _ ht).2.2
  cases h1 : (readConfig (some (written (readConfig (some d)).1))).1 with
  | mk v1 i1 =>
    cases h2 : (readConfig (some d)).1 with
    | mk v2 i2 =>
      rw [h1] at hif
      rw [h2] at hif
      simp only at hif
      subst hif
      congr
      funext s
      have := hval s
      rw [h1] at this
      rw [h2] at this
      exact this

/-- **C83** (the UUID after an admin POST): the running configuration does not compute the parts of a UUID
posted to it; the parts only appear after a restart.  So the two disagree until then. -/
theorem C83_uuid_stale_false :
    ∃ (d : Doc) (saved : Doc), (admin defaultConfig (some d)).2 = some saved ∧
      (admin defaultConfig (some d)).1.val .uuid = .str (Signalk.bs "1-2-3-4-5") ∧
      (admin defaultConfig (some d)).1.val .uuid0 = .str [] ∧
      (readConfig (some saved)).1.val .uuid0 = .str (Signalk.bs "1") := by
  refine ⟨docOf [(.uuid, .str (Signalk.bs "1-2-3-4-5"))], _, rfl, ?_, ?_, ?_⟩ <;> decide +kernel

end Argo.Config
