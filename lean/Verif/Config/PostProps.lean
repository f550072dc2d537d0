import Verif.Config.Post

set_option autoImplicit false

/-! # C133: specification and theorems -/

namespace Argo.Config

open Argo
open Argo.Json (Json)
open Argo.Signalk (bs)

/-! ## Specification -/

/-- The same name but for the case of letters (as Unicode has it: the long s is an s, the Kelvin sign a k). -/
def Called (key : String) (k : List Char) : Prop := k.map Playback.fold = key.toList.map Playback.fold

instance (key : String) (k : List Char) : Decidable (Called key k) := by unfold Called; infer_instance

/-- Where a setting stands in what is posted: in an object, or at the top. -/
def objectOf : Setting → Option String
  | .logLevel | .mapFile => none
  | .enableWebsockets | .serverUseTls | .serverPort | .listenOn | .assetPath | .certificate | .publicKeyFile | .privateKeyFile => some "Server"
  | .mqttEnable | .mqttUseTls | .mqttPort | .mqttHost | .clientId | .username | .password | .channel => some "Mqtt"
  | _ => some "Vessel"

/-- Its name there. -/
def nameOf : Setting → String
  | .logLevel => "LogLevel"
  | .mapFile => "MapFile"
  | .enableWebsockets => "EnableWebsockets"
  | .serverUseTls => "UseTls"
  | .serverPort => "Port"
  | .listenOn => "ListenOn"
  | .assetPath => "AssetPath"
  | .certificate => "Certificate"
  | .publicKeyFile => "PublicKeyFile"
  | .privateKeyFile => "PrivateKeyFile"
  | .mqttEnable => "Enable"
  | .mqttUseTls => "UseTls"
  | .mqttPort => "Port"
  | .mqttHost => "Host"
  | .clientId => "ClientId"
  | .username => "Username"
  | .password => "Password"
  | .channel => "Channel"
  | .vesselName => "Name"
  | .manufacturer => "Manufacturer"
  | .model => "Model"
  | .year => "Year"
  | .mmsi => "Mmsi"
  | .callsign => "Callsign"
  | .registration => "Registration"
  | .uuid => "Uuid"
  | .uuid0 => "Uuid0"
  | .uuid1 => "Uuid1"
  | .uuid2 => "Uuid2"
  | .uuid3 => "Uuid3"
  | .uuid4 => "Uuid4"

/-- The values of the members with this name. -/
def vals (ms : List (List Char × Json)) (key : String) : List Json := (ms.filter fun m => Called key m.1).map Prod.snd

/-- The members of an object. -/
def inside : Json → List (List Char × Json)
  | .obj ms => ms
  | _ => []

/-- The values given for a setting, in order. -/
def given (ms : List (List Char × Json)) (s : Setting) : List Json :=
  match objectOf s with
  | none => vals ms (nameOf s)
  | some o => (vals ms o).flatMap fun v => vals (inside v) (nameOf s)

/-- A text of digits with this value. -/
def Digits (t : Str) (n : Nat) : Prop := (∀ b ∈ t, Json.isDigit b = true) ∧ n = Playback.digitsValue t

/-- A value as the type of the first argument takes it: a text, a whole number of 64 bits written without point and exponent, or yes
or no. -/
inductive Means : Scalar → Json → Scalar → Prop
  | text (x : Str) (t : List Char) : Means (.str x) (.str t) (.str (utf8 t))
  | pos (k : Int) (t : Str) (n : Nat) : t.head? ≠ some 45 → Digits t n → n < 2 ^ 63 → Means (.int k) (.num t) (.int n)
  | neg (k : Int) (t : Str) (n : Nat) : Digits t n → n ≤ 2 ^ 63 → Means (.int k) (.num (45 :: t)) (.int (-n))
  | flag (x b : Bool) : Means (.bool x) (.bool b) (.bool b)

def isNull : Json → Bool
  | .null => true
  | _ => false

/-- An object, or nothing. -/
def ObjectOrNull (v : Json) : Prop := v = .null ∨ ∃ ms, v = .obj ms

/-- The parts of an interface are of their types. -/
def SoundParts (ms : List (List Char × Json)) : Prop :=
  (∀ key ∈ ["Path", "Type"], ∀ v ∈ vals ms key, v = .null ∨ ∃ t, v = .str t) ∧
  (∀ v ∈ vals ms "Speed", v = .null ∨ ∃ t n, v = .num t ∧ Digits t n ∧ n < 2 ^ 64)

/-- Everything that is meant for `TomlConfig` is of its type or null. -/
structure Sound (ms : List (List Char × Json)) : Prop where
  objects : ∀ key ∈ ["Server", "Mqtt", "Vessel", "Interfaces"], ∀ v ∈ vals ms key, ObjectOrNull v
  settings : ∀ s, ∀ v ∈ given ms s, v = .null ∨ ∃ x, Means (zeroOf s) v x
  interfaces : ∀ v ∈ vals ms "Interfaces", ∀ e ∈ inside v, ObjectOrNull e.2 ∧ SoundParts (inside e.2)

/-- What the body of a request begins with; the rest of it does not count. -/
def Begins (body : List UInt8) (v : Json) : Prop := ∃ n r, Playback.value n body = some (v, r)

/-- The last value that is not null. -/
def Last (l : List Json) (v : Json) : Prop := v ≠ .null ∧ ∃ a b, l = a ++ v :: b ∧ ∀ w ∈ b, w = .null

/-- The text of a part of an interface: the last one given, or empty. -/
def LastText (l : List Json) (x : Str) : Prop := ((∀ v ∈ l, v = .null) ∧ x = []) ∨ ∃ t, Last l (.str t) ∧ x = utf8 t

def LastNumber (l : List Json) (n : Nat) : Prop := ((∀ v ∈ l, v = .null) ∧ n = 0) ∨ ∃ t, Last l (.num t) ∧ Digits t n

/-- The interfaces named in a body: those in the objects after the last null. -/
def named (ms : List (List Char × Json)) : List (List Char × Json) :=
  ((vals ms "Interfaces").reverse.takeWhile (fun v => !isNull v)).reverse.flatMap inside

/-! ## Proofs: names -/

section
variable {β : Type} (keys : List (String × β))

theorem lookup_none {k : List Char} (h : lookup keys k = none) : ∀ e ∈ keys, ¬ Called e.1 k := by
  intro e he hc
  unfold lookup at h
  rw [Option.map_eq_none_iff, List.find?_eq_none] at h
  exact h e he (by simpa [Called] using hc)

theorem lookup_some {k : List Char} {x : β} (h : lookup keys k = some x) : ∃ n, (n, x) ∈ keys ∧ Called n k := by
  unfold lookup at h
  rw [Option.map_eq_some_iff] at h
  obtain ⟨e, he, rfl⟩ := h
  exact ⟨e.1, List.mem_of_find?_eq_some he, by simpa [Called] using List.find?_some he⟩

theorem lookup_of (hn : (keys.map fun e => e.1.toList.map Playback.fold).Nodup) {n : String} {x : β} (he : (n, x) ∈ keys) {k : List Char}
    (hc : Called n k) : lookup keys k = some x := by
  induction keys with
  | nil => cases he
  | cons e l ih =>
    simp only [List.map_cons, List.nodup_cons] at hn
    unfold lookup
    rw [List.find?_cons]
    by_cases hk : Called e.1 k
    · rw [show decide (k.map Playback.fold = e.1.toList.map Playback.fold) = true by simpa [Called] using hk]
      rcases List.mem_cons.mp he with rfl | he
      · rfl
      · refine absurd (List.mem_map.mpr ⟨(n, x), he, ?_⟩) hn.1
        unfold Called at hc hk
        rw [← hc, hk]
    · rw [show decide (k.map Playback.fold = e.1.toList.map Playback.fold) = false by simpa [Called] using hk]
      rcases List.mem_cons.mp he with rfl | he
      · exact absurd hc hk
      · exact ih hn.2 he
end

theorem server_nodup : (serverKeys.map fun e => e.1.toList.map Playback.fold).Nodup := by decide +kernel
theorem mqtt_nodup : (mqttKeys.map fun e => e.1.toList.map Playback.fold).Nodup := by decide +kernel
theorem vessel_nodup : (vesselKeys.map fun e => e.1.toList.map Playback.fold).Nodup := by decide +kernel
theorem top_nodup : (topKeys.map fun e => e.1.toList.map Playback.fold).Nodup := by decide +kernel
theorem part_nodup : (partKeys.map fun e => e.1.toList.map Playback.fold).Nodup := by decide +kernel

/-! ## Proofs: values -/

theorem literal_iff (z : Scalar) (v : Json) (x : Scalar) : literal z v = some x ↔ Means z v x := by
  constructor
  · intro h
    cases z <;> cases v <;> simp only [literal, reduceCtorEq] at h
    case str.str a t => cases h; exact .text a t
    case bool.bool a b => cases h; exact .flag a b
    case int.num k t =>
      obtain ⟨n, hn, rfl⟩ := Option.map_eq_some_iff.mp h
      unfold intText at hn
      split at hn
      · next r =>
        split at hn
        · next hr =>
          simp only [Bool.and_eq_true, List.all_eq_true, decide_eq_true_eq] at hr
          cases hn
          exact .neg k r _ ⟨hr.1, rfl⟩ hr.2
        · cases hn
      · next hne =>
        split at hn
        · next hr =>
          simp only [Bool.and_eq_true, List.all_eq_true, decide_eq_true_eq] at hr
          cases hn
          refine .pos k t _ ?_ ⟨hr.1, rfl⟩ hr.2
          intro hh
          cases t with
          | nil => cases hh
          | cons a l => simp only [List.head?_cons, Option.some.injEq] at hh; subst hh; exact hne _ rfl
        · cases hn
  · intro h
    cases h with
    | text a t => rfl
    | flag a b => rfl
    | pos k t n h1 h2 h3 =>
      simp only [literal, intText]
      split
      · next r => exact absurd rfl h1
      · rw [if_pos]
        · rw [h2.2]; rfl
        · simp only [Bool.and_eq_true, List.all_eq_true, decide_eq_true_eq]
          exact ⟨h2.1, by rw [h2.2] at h3; exact h3⟩
    | neg k t n h2 h3 =>
      simp only [literal, intText]
      rw [if_pos]
      · rw [h2.2]; rfl
      · simp only [Bool.and_eq_true, List.all_eq_true, decide_eq_true_eq]
        exact ⟨h2.1, by rw [h2.2] at h3; exact h3⟩

theorem fieldError_iff (s : Setting) (v : Json) : fieldError s v = false ↔ v = .null ∨ ∃ x, Means (zeroOf s) v x := by
  have key : (literal (zeroOf s) v).isNone = false ↔ ∃ x, Means (zeroOf s) v x := by
    rw [← Bool.not_eq_true, Option.isNone_iff_eq_none, ← ne_eq, Option.ne_none_iff_exists']
    simp only [literal_iff]
  cases v with
  | null => simp [fieldError]
  | _ => simpa [fieldError] using key

theorem means_unique {z : Scalar} {v : Json} {x y : Scalar} (h : Means z v x) (h' : Means z v y) : x = y := by
  rw [← literal_iff] at h h'
  rw [h] at h'
  exact Option.some.inj h'

theorem literal_null (z : Scalar) : literal z .null = none := by cases z <;> rfl

theorem step_null (s : Setting) (o : Option Scalar) : step s o .null = o := by
  unfold step; rw [literal_null]; rfl

theorem steps_null (s : Setting) (o : Option Scalar) (l : List Json) (h : ∀ v ∈ l, v = .null) : l.foldl (step s) o = o := by
  induction l with
  | nil => rfl
  | cons v l ih =>
    rw [List.foldl_cons, h v (List.mem_cons_self ..), step_null]
    exact ih (fun w hw => h w (List.mem_cons_of_mem _ hw))

theorem steps_last {s : Setting} {l : List Json} {v : Json} {x : Scalar} (h : Last l v) (hx : Means (zeroOf s) v x) (o : Option Scalar) :
    l.foldl (step s) o = some x := by
  obtain ⟨_, a, b, rfl, hb⟩ := h
  rw [List.foldl_append, List.foldl_cons, steps_null s _ b hb]
  unfold step
  rw [(literal_iff _ _ _).mpr hx]
  rfl

/-! ## Proofs: settings -/

theorem vals_cons (m : List Char × Json) (ms : List (List Char × Json)) (key : String) :
    vals (m :: ms) key = (if Called key m.1 then [m.2] else []) ++ vals ms key := by
  unfold vals
  rw [List.filter_cons]
  by_cases h : Called key m.1 <;> simp [h]

theorem given_cons (m : List Char × Json) (ms : List (List Char × Json)) (s : Setting) : given (m :: ms) s = given [m] s ++ given ms s := by
  unfold given
  cases objectOf s with
  | none => simp only [vals_cons m ms, vals_cons m []]; simp [vals]
  | some o => simp only [vals_cons m ms, vals_cons m []]; simp [vals]

theorem members_val {keys : List (String × Setting)} (hn : (keys.map fun e => e.1.toList.map Playback.fold).Nodup)
    (hu : ∀ s n, (n, s) ∈ keys → n = nameOf s) (s : Setting) (ms : List (List Char × Json)) (d : Doc) :
    (ms.foldl (storeMember keys) d).val s =
      (if (nameOf s, s) ∈ keys then (vals ms (nameOf s)).foldl (step s) (d.val s) else d.val s) ∧
    (ms.foldl (storeMember keys) d).interfaces = d.interfaces := by
  induction ms generalizing d with
  | nil => simp [vals]
  | cons m ms ih =>
    rw [List.foldl_cons]
    obtain ⟨i1, i2⟩ := ih (storeMember keys d m)
    rw [i1, i2]
    constructor
    · by_cases hs : (nameOf s, s) ∈ keys
      · simp only [hs, if_true, vals_cons, List.foldl_append]
        congr 1
        by_cases hc : Called (nameOf s) m.1
        · rw [if_pos hc]
          unfold storeMember
          rw [lookup_of keys hn hs hc]
          simp [storeField]
        · rw [if_neg hc]
          unfold storeMember
          split
          · next s' hl =>
            obtain ⟨n, hn1, hn2⟩ := lookup_some keys hl
            have : s ≠ s' := by rintro rfl; rw [hu _ _ hn1] at hn2; exact hc hn2
            simp [storeField, this]
          · rfl
      · simp only [hs, if_false]
        unfold storeMember
        split
        · next s' hl =>
          obtain ⟨n, hn1, _⟩ := lookup_some keys hl
          have : s ≠ s' := by rintro rfl; rw [hu _ _ hn1] at hn1; exact hs hn1
          simp [storeField, this]
        · rfl
    · unfold storeMember
      split <;> rfl

theorem server_name : ∀ e ∈ serverKeys, e.1 = nameOf e.2 ∧ objectOf e.2 = some "Server" := by decide +kernel
theorem mqtt_name : ∀ e ∈ mqttKeys, e.1 = nameOf e.2 ∧ objectOf e.2 = some "Mqtt" := by decide +kernel
theorem vessel_name : ∀ e ∈ vesselKeys, e.1 = nameOf e.2 ∧ objectOf e.2 = some "Vessel" := by decide +kernel

theorem server_mem (s : Setting) : (nameOf s, s) ∈ serverKeys ↔ objectOf s = some "Server" := by
  cases s <;> decide +kernel
theorem mqtt_mem (s : Setting) : (nameOf s, s) ∈ mqttKeys ↔ objectOf s = some "Mqtt" := by
  cases s <;> decide +kernel
theorem vessel_mem (s : Setting) : (nameOf s, s) ∈ vesselKeys ↔ objectOf s = some "Vessel" := by
  cases s <;> decide +kernel

/-- A struct at the top. -/
structure IsStruct (o : String) (keys : List (String × Setting)) : Prop where
  top : (o, Place.struct keys) ∈ topKeys
  nodup : (keys.map fun e => e.1.toList.map Playback.fold).Nodup
  name : ∀ e ∈ keys, e.1 = nameOf e.2 ∧ objectOf e.2 = some o
  mem : ∀ s, (nameOf s, s) ∈ keys ↔ objectOf s = some o

theorem struct_of {keys : List (String × Setting)} {o : String} (h : (o, Place.struct keys) ∈ topKeys) : IsStruct o keys := by
  have h0 := h
  simp only [topKeys, List.mem_cons, Prod.mk.injEq, reduceCtorEq, and_false, Place.struct.injEq, List.not_mem_nil, or_false, false_or] at h
  rcases h with ⟨rfl, rfl⟩ | ⟨rfl, rfl⟩ | ⟨rfl, rfl⟩
  · exact ⟨h0, server_nodup, server_name, server_mem⟩
  · exact ⟨h0, mqtt_nodup, mqtt_name, mqtt_mem⟩
  · exact ⟨h0, vessel_nodup, vessel_name, vessel_mem⟩

theorem struct_exists {s : Setting} {o : String} (h : objectOf s = some o) : ∃ keys, IsStruct o keys := by
  have : o = "Server" ∨ o = "Mqtt" ∨ o = "Vessel" := by
    cases s <;> simp only [objectOf, reduceCtorEq, Option.some.injEq] at h <;> subst h <;> simp
  rcases this with rfl | rfl | rfl
  · exact ⟨serverKeys, struct_of (by decide +kernel)⟩
  · exact ⟨mqttKeys, struct_of (by decide +kernel)⟩
  · exact ⟨vesselKeys, struct_of (by decide +kernel)⟩

theorem field_top {s : Setting} {n : String} (h : (n, Place.field s) ∈ topKeys) : n = nameOf s ∧ objectOf s = none := by
  simp only [topKeys, List.mem_cons, Prod.mk.injEq, reduceCtorEq, and_false, Place.field.injEq, List.not_mem_nil, or_false, false_or] at h
  rcases h with ⟨rfl, rfl⟩ | ⟨rfl, rfl⟩ <;> exact ⟨rfl, rfl⟩

theorem field_mem {s : Setting} (h : objectOf s = none) : (nameOf s, Place.field s) ∈ topKeys := by
  cases s <;> simp only [objectOf, reduceCtorEq] at h <;> decide +kernel

theorem interfaces_top {n : String} (h : (n, Place.interfaces) ∈ topKeys) : n = "Interfaces" := by
  simpa [topKeys] using h

theorem interfaces_mem : ("Interfaces", Place.interfaces) ∈ topKeys := by decide +kernel

/-- What is given for a setting by one member. -/
theorem given_one (m : List Char × Json) (s : Setting) :
    given [m] s = match lookup topKeys m.1 with
      | some (.field s') => if s' = s then [m.2] else []
      | some (.struct keys) => if (nameOf s, s) ∈ keys then vals (inside m.2) (nameOf s) else []
      | _ => [] := by
  have hv : ∀ key, vals [m] key = if Called key m.1 then [m.2] else [] := fun key => by rw [vals_cons]; simp [vals]
  unfold given
  cases ho : objectOf s with
  | none =>
    simp only [hv]
    by_cases hc : Called (nameOf s) m.1
    · rw [lookup_of topKeys top_nodup (field_mem ho) hc]
      simp [hc]
    · rw [if_neg hc]
      split
      · next s' hl =>
        obtain ⟨n, h1, h2⟩ := lookup_some topKeys hl
        have : s' ≠ s := by rintro rfl; rw [(field_top h1).1] at h2; exact hc h2
        simp [this]
      · next keys hl =>
        obtain ⟨n, h1, h2⟩ := lookup_some topKeys hl
        have : ¬ (nameOf s, s) ∈ keys := by rw [(struct_of h1).mem, ho]; simp
        simp [this]
      · rfl
  | some o =>
    obtain ⟨keys, hk⟩ := struct_exists ho
    simp only [hv]
    by_cases hc : Called o m.1
    · rw [lookup_of topKeys top_nodup hk.top hc]
      simp [hc, (hk.mem s).mpr ho]
    · rw [if_neg hc]
      split
      · next s' hl =>
        obtain ⟨n, h1, h2⟩ := lookup_some topKeys hl
        have : s' ≠ s := by rintro rfl; rw [(field_top h1).2] at ho; cases ho
        simp [this]
      · next keys' hl =>
        obtain ⟨n, h1, h2⟩ := lookup_some topKeys hl
        have : ¬ (nameOf s, s) ∈ keys' := by
          rw [(struct_of h1).mem, ho]
          rintro h
          injection h with h
          subst h
          exact hc h2
        simp [this]
      · rfl

theorem store_val (d : Doc) (m : List Char × Json) (s : Setting) : (store d m).val s = (given [m] s).foldl (step s) (d.val s) := by
  rw [given_one]
  unfold store
  cases hl : lookup topKeys m.1 with
  | none => rfl
  | some p =>
    cases p with
    | field s' =>
      simp only [storeField]
      by_cases h : s' = s
      · subst h; simp
      · simp [h, Ne.symm h]
    | struct keys =>
      obtain ⟨n, h1, _⟩ := lookup_some topKeys hl
      have hk := struct_of h1
      cases hm : m.2 with
      | obj ms =>
        simp only [inside]
        rw [(members_val hk.nodup (fun s n h => (hk.name _ h).1) s ms d).1]
        split <;> rfl
      | _ => simp [inside, vals]
    | interfaces => cases m.2 <;> rfl

theorem stores_val (ms : List (List Char × Json)) (d : Doc) (s : Setting) :
    (ms.foldl store d).val s = (given ms s).foldl (step s) (d.val s) := by
  induction ms generalizing d with
  | nil =>
    have : given [] s = [] := by unfold given; cases objectOf s <;> rfl
    rw [this]; rfl
  | cons m ms ih => rw [List.foldl_cons, ih, given_cons, List.foldl_append, store_val]

/-! ## Proofs: errors -/

theorem vals_flat (ms : List (List Char × Json)) (key : String) : vals ms key = ms.flatMap fun m => vals [m] key := by
  induction ms with
  | nil => rfl
  | cons m ms ih => rw [List.flatMap_cons, ← ih, vals_cons, vals_cons m []]; simp [vals]

theorem given_flat (ms : List (List Char × Json)) (s : Setting) : given ms s = ms.flatMap fun m => given [m] s := by
  induction ms with
  | nil => unfold given; cases objectOf s <;> rfl
  | cons m ms ih => rw [List.flatMap_cons, ← ih, given_cons]

theorem sound_iff (ms : List (List Char × Json)) : Sound ms ↔ ∀ m ∈ ms, Sound [m] := by
  constructor
  · intro h m hm
    refine ⟨fun key hk v hv => ?_, fun s v hv => ?_, fun v hv => ?_⟩
    · exact h.objects key hk v (by rw [vals_flat, List.mem_flatMap]; exact ⟨m, hm, hv⟩)
    · exact h.settings s v (by rw [given_flat, List.mem_flatMap]; exact ⟨m, hm, hv⟩)
    · exact h.interfaces v (by rw [vals_flat, List.mem_flatMap]; exact ⟨m, hm, hv⟩)
  · intro h
    refine ⟨fun key hk v hv => ?_, fun s v hv => ?_, fun v hv => ?_⟩
    · rw [vals_flat, List.mem_flatMap] at hv
      obtain ⟨m, hm, hv⟩ := hv
      exact (h m hm).objects key hk v hv
    · rw [given_flat, List.mem_flatMap] at hv
      obtain ⟨m, hm, hv⟩ := hv
      exact (h m hm).settings s v hv
    · rw [vals_flat, List.mem_flatMap] at hv
      obtain ⟨m, hm, hv⟩ := hv
      exact (h m hm).interfaces v hv

theorem top_unique : ∀ e ∈ topKeys, ∀ e' ∈ topKeys, e.2 = e'.2 → e.1 = e'.1 := by decide +kernel

theorem vals_top {key : String} {p : Place} (h : (key, p) ∈ topKeys) (m : List Char × Json) :
    vals [m] key = if lookup topKeys m.1 = some p then [m.2] else [] := by
  have hv : vals [m] key = if Called key m.1 then [m.2] else [] := by rw [vals_cons]; simp [vals]
  rw [hv]
  by_cases hc : Called key m.1
  · rw [if_pos hc, if_pos (lookup_of topKeys top_nodup h hc)]
  · rw [if_neg hc, if_neg]
    intro hl
    obtain ⟨n, h1, h2⟩ := lookup_some topKeys hl
    rw [show n = key from top_unique _ h1 _ h rfl] at h2
    exact hc h2

theorem members_error {keys : List (String × Setting)} (hn : (keys.map fun e => e.1.toList.map Playback.fold).Nodup)
    (hu : ∀ e ∈ keys, e.1 = nameOf e.2) (ms : List (List Char × Json)) :
    ms.any (memberError keys) = false ↔ ∀ s, (nameOf s, s) ∈ keys → ∀ v ∈ vals ms (nameOf s), fieldError s v = false := by
  rw [List.any_eq_false]
  constructor
  · intro h s hs v hv
    unfold vals at hv
    obtain ⟨m, hm, rfl⟩ := List.mem_map.mp hv
    obtain ⟨hm, hc⟩ := List.mem_filter.mp hm
    have := h m hm
    unfold memberError at this
    rw [lookup_of keys hn hs (by simpa using hc)] at this
    simpa using this
  · intro h m hm
    unfold memberError
    split
    · next s hl =>
      obtain ⟨n, h1, h2⟩ := lookup_some keys hl
      have he := hu _ h1
      simp only at he
      subst he
      rw [h s h1 m.2 (List.mem_map.mpr ⟨m, List.mem_filter.mpr ⟨hm, by simpa using h2⟩, rfl⟩)]
      simp
    · simp

theorem uint_iff (t : Str) (n : Nat) : uintText t = some n ↔ Digits t n ∧ n < 2 ^ 64 := by
  unfold uintText Digits
  constructor
  · intro h
    split at h
    · next hc =>
      simp only [Bool.and_eq_true, List.all_eq_true, decide_eq_true_eq] at hc
      cases h
      exact ⟨⟨hc.1, rfl⟩, hc.2⟩
    · cases h
  · rintro ⟨⟨h1, h2⟩, h3⟩
    rw [if_pos]
    · rw [h2]; rfl
    · simp only [Bool.and_eq_true, List.all_eq_true, decide_eq_true_eq]
      exact ⟨h1, by rw [h2] at h3; exact h3⟩

theorem part_unique : ∀ e ∈ partKeys, ∀ e' ∈ partKeys, e.2 = e'.2 → e.1 = e'.1 := by decide +kernel

theorem vals_part {key : String} {p : Part} (h : (key, p) ∈ partKeys) (m : List Char × Json) :
    vals [m] key = if lookup partKeys m.1 = some p then [m.2] else [] := by
  have hv : vals [m] key = if Called key m.1 then [m.2] else [] := by rw [vals_cons]; simp [vals]
  rw [hv]
  by_cases hc : Called key m.1
  · rw [if_pos hc, if_pos (lookup_of partKeys part_nodup h hc)]
  · rw [if_neg hc, if_neg]
    intro hl
    obtain ⟨n, h1, h2⟩ := lookup_some partKeys hl
    rw [show n = key from part_unique _ h1 _ h rfl] at h2
    exact hc h2

theorem path_mem : ("Path", Part.path) ∈ partKeys := by decide +kernel
theorem type_mem : ("Type", Part.type) ∈ partKeys := by decide +kernel
theorem speed_mem : ("Speed", Part.speed) ∈ partKeys := by decide +kernel

theorem part_error (m : List Char × Json) : partError m = false ↔ SoundParts [m] := by
  have hk : ∀ P : String → Prop, (∀ key ∈ ["Path", "Type"], P key) ↔ P "Path" ∧ P "Type" := by intro P; simp
  unfold SoundParts
  rw [hk, vals_part path_mem, vals_part type_mem, vals_part speed_mem]
  unfold partError
  cases hl : lookup partKeys m.1 with
  | none => simp
  | some p =>
    cases p with
    | path => cases hm : m.2 <;> simp
    | type => cases hm : m.2 <;> simp
    | speed =>
      cases hm : m.2 with
      | num t =>
        have : (uintText t).isNone = false ↔ ∃ n, Digits t n ∧ n < 2 ^ 64 := by
          rw [← Bool.not_eq_true, Option.isNone_iff_eq_none, ← ne_eq, Option.ne_none_iff_exists']
          simp only [uint_iff]
        simp only [this]
        simp
      | _ => simp

theorem parts_error (ms : List (List Char × Json)) : ms.any partError = false ↔ SoundParts ms := by
  rw [List.any_eq_false]
  have : SoundParts ms ↔ ∀ m ∈ ms, SoundParts [m] := by
    constructor
    · intro h m hm
      exact ⟨fun key hk v hv => h.1 key hk v (by rw [vals_flat, List.mem_flatMap]; exact ⟨m, hm, hv⟩),
        fun v hv => h.2 v (by rw [vals_flat, List.mem_flatMap]; exact ⟨m, hm, hv⟩)⟩
    · intro h
      refine ⟨fun key hk v hv => ?_, fun v hv => ?_⟩
      · rw [vals_flat, List.mem_flatMap] at hv
        obtain ⟨m, hm, hv⟩ := hv
        exact (h m hm).1 key hk v hv
      · rw [vals_flat, List.mem_flatMap] at hv
        obtain ⟨m, hm, hv⟩ := hv
        exact (h m hm).2 v hv
  rw [this]
  exact ⟨fun h m hm => (part_error m).mp (by simpa using h m hm), fun h m hm => by rw [(part_error m).mpr (h m hm)]; simp⟩

theorem interface_error (v : Json) : interfaceError v = false ↔ ObjectOrNull v ∧ SoundParts (inside v) := by
  have h0 : SoundParts [] := ⟨fun _ _ _ h => (by cases h), fun _ h => (by cases h)⟩
  cases v with
  | null => simp [interfaceError, ObjectOrNull, inside, h0]
  | obj ms => simpa [interfaceError, ObjectOrNull, inside] using parts_error ms
  | _ => simp [interfaceError, ObjectOrNull]

theorem server_top : ("Server", Place.struct serverKeys) ∈ topKeys := by decide +kernel
theorem mqtt_top : ("Mqtt", Place.struct mqttKeys) ∈ topKeys := by decide +kernel
theorem vessel_top : ("Vessel", Place.struct vesselKeys) ∈ topKeys := by decide +kernel

theorem store_error (m : List Char × Json) : storeError m = false ↔ Sound [m] := by
  have hi := vals_top interfaces_mem m
  have e1 : vals [m] "Server" = if lookup topKeys m.1 = some (.struct serverKeys) then [m.2] else [] := vals_top server_top m
  have e2 : vals [m] "Mqtt" = if lookup topKeys m.1 = some (.struct mqttKeys) then [m.2] else [] := vals_top mqtt_top m
  have e3 : vals [m] "Vessel" = if lookup topKeys m.1 = some (.struct vesselKeys) then [m.2] else [] := vals_top vessel_top m
  have hobj : (∀ key ∈ ["Server", "Mqtt", "Vessel", "Interfaces"], ∀ v ∈ vals [m] key, ObjectOrNull v) ↔
      ((∃ keys, lookup topKeys m.1 = some (.struct keys)) ∨ lookup topKeys m.1 = some .interfaces → ObjectOrNull m.2) := by
    constructor
    · rintro h (⟨keys, hl⟩ | hl)
      · obtain ⟨n, h1, h2⟩ := lookup_some topKeys hl
        refine h n ?_ m.2 ?_
        · simp only [topKeys, List.mem_cons, Prod.mk.injEq, reduceCtorEq, and_false, List.not_mem_nil, or_false, false_or] at h1
          rcases h1 with ⟨rfl, _⟩ | ⟨rfl, _⟩ | ⟨rfl, _⟩ <;> simp
        · rw [vals_top h1, if_pos hl]; simp
      · exact h "Interfaces" (by simp) m.2 (by rw [hi, if_pos hl]; simp)
    · intro h key hk v hv
      simp only [List.mem_cons, List.not_mem_nil, or_false] at hk
      rcases hk with rfl | rfl | rfl | rfl
      · rw [e1] at hv; split at hv
        · next hl => rw [List.mem_singleton.mp hv]; exact h (.inl ⟨_, hl⟩)
        · cases hv
      · rw [e2] at hv; split at hv
        · next hl => rw [List.mem_singleton.mp hv]; exact h (.inl ⟨_, hl⟩)
        · cases hv
      · rw [e3] at hv; split at hv
        · next hl => rw [List.mem_singleton.mp hv]; exact h (.inl ⟨_, hl⟩)
        · cases hv
      · rw [hi] at hv; split at hv
        · next hl => rw [List.mem_singleton.mp hv]; exact h (.inr hl)
        · cases hv
  have hs : Sound [m] ↔ ((∃ keys, lookup topKeys m.1 = some (.struct keys)) ∨ lookup topKeys m.1 = some .interfaces → ObjectOrNull m.2) ∧
      (∀ s, ∀ v ∈ given [m] s, fieldError s v = false) ∧
      (lookup topKeys m.1 = some .interfaces → ∀ e ∈ inside m.2, interfaceError e.2 = false) := by
    rw [← hobj]
    constructor
    · rintro ⟨a, b, c⟩
      refine ⟨a, fun s v hv => (fieldError_iff s v).mpr (b s v hv), fun hl e he => ?_⟩
      rw [interface_error]
      exact c m.2 (by rw [hi, if_pos hl]; simp) e he
    · rintro ⟨a, b, c⟩
      refine ⟨a, fun s v hv => (fieldError_iff s v).mp (b s v hv), fun v hv e he => ?_⟩
      rw [hi] at hv
      split at hv
      · next hl =>
        rw [List.mem_singleton.mp hv] at he
        exact (interface_error _).mp (c hl e he)
      · cases hv
  rw [hs]
  simp only [given_one]
  unfold storeError
  cases hl : lookup topKeys m.1 with
  | none => simp
  | some p =>
    cases p with
    | field s =>
      simp only [reduceCtorEq, Option.some.injEq, exists_const, or_self, false_implies, true_and, and_true]
      constructor
      · intro h s' v hv
        split at hv
        · next e => subst e; rw [List.mem_singleton.mp hv]; exact h
        · cases hv
      · intro h
        exact h s m.2 (by simp)
    | struct keys =>
      obtain ⟨n, h1, _⟩ := lookup_some topKeys hl
      have hk := struct_of h1
      have hm := members_error hk.nodup (fun e he => (hk.name e he).1)
      have hg : ∀ ms : List (List Char × Json),
          (∀ s, ∀ v ∈ (if (nameOf s, s) ∈ keys then vals ms (nameOf s) else []), fieldError s v = false) ↔
          ms.any (memberError keys) = false := by
        intro ms
        rw [hm]
        constructor
        · intro h s hs v hv; exact h s v (by rw [if_pos hs]; exact hv)
        · intro h s v hv
          split at hv
          · next hs => exact h s hs v hv
          · cases hv
      simp only [hg]
      cases hm2 : m.2 with
      | obj ms => simp [ObjectOrNull, inside]
      | null => simp [ObjectOrNull, inside]
      | _ => simp [ObjectOrNull]
    | interfaces =>
      cases hm2 : m.2 with
      | obj ms => simp [ObjectOrNull, inside]
      | null => simp [ObjectOrNull, inside]
      | _ => simp [ObjectOrNull]

theorem stores_error (ms : List (List Char × Json)) : ms.any storeError = false ↔ Sound ms := by
  rw [sound_iff, List.any_eq_false]
  exact ⟨fun h m hm => (store_error m).mp (by simpa using h m hm), fun h m hm => by rw [(store_error m).mpr (h m hm)]; simp⟩

/-! ## Proofs: interfaces -/

/-- One value for the interfaces. -/
def stepI (l : List (Str × Interface)) : Json → List (Str × Interface)
  | .null => []
  | .obj ms => ms.foldl putInterface l
  | _ => l

theorem store_interfaces (d : Doc) (m : List Char × Json) : (store d m).interfaces = (vals [m] "Interfaces").foldl stepI d.interfaces := by
  rw [vals_top interfaces_mem]
  unfold store
  cases hl : lookup topKeys m.1 with
  | none => rfl
  | some p =>
    cases p with
    | field s => rfl
    | struct keys =>
      obtain ⟨n, h1, _⟩ := lookup_some topKeys hl
      have hk := struct_of h1
      cases hm : m.2 with
      | obj ms => simp [(members_val hk.nodup (fun s n h => (hk.name _ h).1) .logLevel ms d).2]
      | _ => simp
    | interfaces => cases hm : m.2 <;> simp [stepI]

theorem stores_interfaces (ms : List (List Char × Json)) (d : Doc) :
    (ms.foldl store d).interfaces = (vals ms "Interfaces").foldl stepI d.interfaces := by
  induction ms generalizing d with
  | nil => rfl
  | cons m ms ih =>
    rw [List.foldl_cons, ih, store_interfaces, vals_cons m ms, vals_cons m []]
    simp [vals]

theorem steps_named (L : List Json) (h : ∀ v ∈ L, ObjectOrNull v) :
    L.foldl stepI [] = ((L.reverse.takeWhile (fun v => !isNull v)).reverse.flatMap inside).foldl putInterface [] := by
  induction L using List.reverseRecOn with
  | nil => rfl
  | append_singleton L v ih =>
    rw [List.foldl_append, ih (fun w hw => h w (List.mem_append_left _ hw)), List.reverse_append]
    simp only [List.reverse_cons, List.reverse_nil, List.nil_append, List.singleton_append, List.foldl_cons, List.foldl_nil]
    rcases h v (by simp) with rfl | ⟨ms, rfl⟩
    · simp [isNull, stepI]
    · simp [isNull, stepI, inside]

theorem utf8_inj {a b : List Char} (h : utf8 a = utf8 b) : a = b := by
  have := congrArg Json.chars h
  unfold utf8 at this
  rwa [Json.chars_utf8, Json.chars_utf8] at this

theorem get_put (l : List (Str × Interface)) (m : List Char × Json) (k : Str) :
    mapGet (putInterface l m) k = if utf8 m.1 = k then some (interfaceOf m.2) else mapGet l k := by
  unfold putInterface mapGet
  rw [List.find?_append]
  by_cases h : utf8 m.1 = k
  · subst h
    rw [if_pos rfl, List.find?_eq_none.mpr]
    · simp
    · intro e he
      have := (List.mem_filter.mp he).2
      simpa using this
  · rw [if_neg h]
    have : (l.filter fun e => decide (e.1 ≠ utf8 m.1)).find? (fun e => decide (e.1 = k)) = l.find? (fun e => decide (e.1 = k)) := by
      rw [List.find?_filter]
      congr 1
      funext e
      by_cases he : e.1 = k
      · simp [he, Ne.symm h]
      · simp [he]
    rw [this]
    simp [h]

theorem get_puts (es : List (List Char × Json)) (l : List (Str × Interface)) (k : Str) (h : ∀ e ∈ es, utf8 e.1 ≠ k) :
    mapGet (es.foldl putInterface l) k = mapGet l k := by
  induction es generalizing l with
  | nil => rfl
  | cons e es ih =>
    rw [List.foldl_cons, ih _ (fun x hx => h x (List.mem_cons_of_mem _ hx)), get_put, if_neg (h e (List.mem_cons_self ..))]

theorem last_snoc_null {l : List Json} {v : Json} : Last (l ++ [.null]) v ↔ Last l v := by
  constructor
  · rintro ⟨h0, a, b, e, hb⟩
    refine ⟨h0, a, ?_⟩
    rcases List.eq_nil_or_concat b with rfl | ⟨b', w, rfl⟩
    · have := congrArg List.getLast? e
      simp only [List.getLast?_append, List.getLast?_singleton, Option.some_or, Option.some.injEq] at this
      exact absurd this.symm h0
    · refine ⟨b', ?_, fun w hw => hb w (by simp [hw])⟩
      rw [List.concat_eq_append, ← List.cons_append, ← List.append_assoc] at e
      exact (List.append_inj' e rfl).1
  · rintro ⟨h0, a, b, rfl, hb⟩
    refine ⟨h0, a, b ++ [.null], by simp, fun w hw => ?_⟩
    rcases List.mem_append.mp hw with hw | hw
    · exact hb w hw
    · exact List.mem_singleton.mp hw

theorem last_snoc {l : List Json} {v : Json} (h : v ≠ .null) : Last (l ++ [v]) v := ⟨h, l, [], by simp, by simp⟩

theorem vals_snoc (ms : List (List Char × Json)) (m : List Char × Json) (key : String) :
    vals (ms ++ [m]) key = vals ms key ++ vals [m] key := by
  unfold vals; rw [List.filter_append, List.map_append]

theorem lastText_null {l : List Json} {x : Str} (h : LastText l x) : LastText (l ++ [.null]) x := by
  rcases h with ⟨h1, h2⟩ | ⟨t, h1, h2⟩
  · left
    refine ⟨fun v hv => ?_, h2⟩
    rcases List.mem_append.mp hv with hv | hv
    · exact h1 v hv
    · exact List.mem_singleton.mp hv
  · exact .inr ⟨t, last_snoc_null.mpr h1, h2⟩

theorem lastNumber_null {l : List Json} {n : Nat} (h : LastNumber l n) : LastNumber (l ++ [.null]) n := by
  rcases h with ⟨h1, h2⟩ | ⟨t, h1, h2⟩
  · left
    refine ⟨fun v hv => ?_, h2⟩
    rcases List.mem_append.mp hv with hv | hv
    · exact h1 v hv
    · exact List.mem_singleton.mp hv
  · exact .inr ⟨t, last_snoc_null.mpr h1, h2⟩

/-- An interface as it is described. -/
def Describes (ms : List (List Char × Json)) (i : Interface) : Prop :=
  LastText (vals ms "Path") i.path ∧ LastText (vals ms "Type") i.type ∧ LastNumber (vals ms "Speed") i.speed

theorem parts_describe (ms : List (List Char × Json)) (h : SoundParts ms) : Describes ms (ms.foldl storePart ⟨[], [], 0⟩) := by
  induction ms using List.reverseRecOn with
  | nil => exact ⟨.inl ⟨fun _ h => (by cases h), rfl⟩, .inl ⟨fun _ h => (by cases h), rfl⟩, .inl ⟨fun _ h => (by cases h), rfl⟩⟩
  | append_singleton ms m ih =>
    have hs : SoundParts ms ∧ SoundParts [m] := by
      constructor
      · exact ⟨fun key hk v hv => h.1 key hk v (by rw [vals_snoc]; exact List.mem_append_left _ hv),
          fun v hv => h.2 v (by rw [vals_snoc]; exact List.mem_append_left _ hv)⟩
      · exact ⟨fun key hk v hv => h.1 key hk v (by rw [vals_snoc]; exact List.mem_append_right _ hv),
          fun v hv => h.2 v (by rw [vals_snoc]; exact List.mem_append_right _ hv)⟩
    obtain ⟨i1, i2, i3⟩ := ih hs.1
    have he := (part_error m).mpr hs.2
    rw [List.foldl_append, List.foldl_cons, List.foldl_nil]
    generalize ms.foldl storePart ⟨[], [], 0⟩ = i at i1 i2 i3
    unfold Describes
    rw [vals_snoc, vals_snoc, vals_snoc, vals_part path_mem, vals_part type_mem, vals_part speed_mem]
    unfold partError at he
    unfold storePart
    cases hl : lookup partKeys m.1 with
    | none => simpa using ⟨i1, i2, i3⟩
    | some p =>
      rw [hl] at he
      cases p with
      | path =>
        cases hm : m.2 <;> rw [hm] at he <;> simp only [Bool.true_eq_false] at he
        · simpa using ⟨lastText_null i1, i2, i3⟩
        · simpa using ⟨.inr ⟨_, last_snoc (by simp), rfl⟩, i2, i3⟩
      | type =>
        cases hm : m.2 <;> rw [hm] at he <;> simp only [Bool.true_eq_false] at he
        · simpa using ⟨i1, lastText_null i2, i3⟩
        · simpa using ⟨i1, .inr ⟨_, last_snoc (by simp), rfl⟩, i3⟩
      | speed =>
        cases hm : m.2 <;> rw [hm] at he <;> simp only [Bool.true_eq_false] at he
        · simpa using ⟨i1, i2, lastNumber_null i3⟩
        · next t =>
          obtain ⟨n, hn⟩ : ∃ n, uintText t = some n := by
            cases hu : uintText t with
            | none => rw [hu] at he; cases he
            | some n => exact ⟨n, rfl⟩
          simp only [reduceCtorEq, Option.some.injEq, if_false, if_true, List.append_nil, hn, Option.getD_some]
          exact ⟨i1, i2, .inr ⟨t, last_snoc (by simp), ((uint_iff t n).mp hn).1⟩⟩

theorem interface_describe {v : Json} (h : ObjectOrNull v) (hs : SoundParts (inside v)) : Describes (inside v) (interfaceOf v) := by
  rcases h with rfl | ⟨ms, rfl⟩
  · exact parts_describe [] hs
  · exact parts_describe ms hs

/-! ## The bodies that are accepted -/

theorem begins_iff (body : List UInt8) (v : Json) : Begins body v ↔ ∃ r, Playback.value (2 * body.length) body = some (v, r) := by
  constructor
  · rintro ⟨n, r, h⟩
    exact ⟨r, ((Playback.fuel_step n).1 _ _ _ h).2⟩
  · rintro ⟨r, h⟩
    exact ⟨_, r, h⟩

/-- A body begins with at most one value. -/
theorem begins_unique {body : List UInt8} {v v' : Json} (h : Begins body v) (h' : Begins body v') : v = v' := by
  rw [begins_iff] at h h'
  obtain ⟨r, h⟩ := h
  obtain ⟨r', h'⟩ := h'
  rw [h] at h'
  exact (Prod.mk.inj (Option.some.inj h')).1

/-- Nested no deeper than Go reads. -/
def Shallow (limit : Option Nat) (v : Json) : Prop := ∀ n, limit = some n → Playback.depth v ≤ n

theorem posted_of {limit : Option Nat} {body : List UInt8} {v : Json} (hb : Begins body v) (hd : Shallow limit v) (ho : ObjectOrNull v)
    (hs : Sound (inside v)) : posted limit body = some ((inside v).foldl store ⟨fun _ => none, []⟩) := by
  obtain ⟨r, h⟩ := (begins_iff _ _).mp hb
  unfold posted
  rw [h]
  simp only
  rw [if_neg]
  · rcases ho with rfl | ⟨ms, rfl⟩
    · rfl
    · simp only [inside] at hs ⊢
      rw [(stores_error ms).mpr hs]
      rfl
  · cases limit with
    | none => simp
    | some n => simpa using hd n rfl

theorem posted_some {limit : Option Nat} {body : List UInt8} {d : Doc} (h : posted limit body = some d) :
    ∃ v, Begins body v ∧ Shallow limit v ∧ ObjectOrNull v ∧ Sound (inside v) := by
  unfold posted at h
  split at h
  · cases h
  · next v r hv =>
    refine ⟨v, ⟨_, r, hv⟩, ?_⟩
    split at h
    · cases h
    · next hd =>
      refine ⟨?_, ?_⟩
      · rintro n rfl
        simpa using hd
      · have h0 : Sound [] := (stores_error []).mp rfl
        cases v with
        | null => exact ⟨.inl rfl, h0⟩
        | obj ms =>
          refine ⟨.inr ⟨ms, rfl⟩, (stores_error ms).mp ?_⟩
          simp only at h
          split at h
          · cases h
          · next hn => simpa using hn
        | _ => cases h

theorem stored_typed (ms : List (List Char × Json)) : ¬ Illtyped (fun _ => true) (ms.foldl store ⟨fun _ => none, []⟩) := by
  rintro ⟨s, v, hv, _, ht⟩
  rw [stores_val] at hv
  have : ∀ (l : List Json) (o : Option Scalar), (∀ x, o = some x → x.sameType (zeroOf s) = true) →
      ∀ x, l.foldl (step s) o = some x → x.sameType (zeroOf s) = true := by
    intro l
    induction l with
    | nil => exact fun o h => h
    | cons w l ih =>
      intro o h
      refine ih _ (fun x hx => ?_)
      unfold step at hx
      cases hl : literal (zeroOf s) w with
      | none => rw [hl] at hx; exact h x hx
      | some y =>
        rw [hl] at hx
        simp only [Option.map_some, Option.getD_some, Option.some.injEq] at hx
        subst hx
        have hm := (literal_iff _ _ _).mp hl
        generalize zeroOf s = z at hm
        cases hm <;> rfl
  rw [this _ none (fun _ h => (by cases h)) v hv] at ht
  cases ht

/-- The body is a request that is followed: an object (or null) with everything in it of its type. -/
def Followed (limit : Option Nat) (body : List UInt8) (ms : List (List Char × Json)) : Prop :=
  ∃ v, Begins body v ∧ Shallow limit v ∧ ObjectOrNull v ∧ Sound (inside v) ∧ ms = inside v

/-- **C133** (any body): whatever bytes are posted to /admin, either they begin with a JSON object (or null) in which everything that
is meant for the configuration is of its type, or nothing changes and nothing is saved.  In the first case the new configuration is
saved; settings that have a value and interfaces that there are stay; a setting without a value gets the last value given for it,
names being compared without regard to case, `null` and unknown members counting for nothing; a new interface is the last one
described under its name. -/
theorem C133_post (limit : Option Nat) (body : List UInt8) {c : Conf} (hc : WellTyped c) :
    ((∀ ms, ¬ Followed limit body ms) → admin c (posted limit body) = (c, none)) ∧
    ∀ ms, Followed limit body ms →
      let c' := (admin c (posted limit body)).1
      (∃ saved, (admin c (posted limit body)).2 = some saved ∧ saved.interfaces = c'.interfaces ∧
        ∀ s, saved.val s = if s ∈ [.certificate, .uuid0, .uuid1, .uuid2, .uuid3, .uuid4] then none else some (c'.val s)) ∧
      (∀ s, ¬ Unset c s → c'.val s = c.val s) ∧
      (∀ s, Unset c s → (∀ v ∈ given ms s, v = .null) → c'.val s = c.val s) ∧
      (∀ s, Unset c s → ∀ v, Last (given ms s) v → ∃ x, Means (zeroOf s) v x ∧ c'.val s = x) ∧
      (∀ k i, mapGet c.interfaces k = some i → mapGet c'.interfaces k = some i) ∧
      (∀ k, mapGet c.interfaces k = none → (∀ e ∈ named ms, utf8 e.1 ≠ k) → mapGet c'.interfaces k = none) ∧
      (∀ name v a b, mapGet c.interfaces (utf8 name) = none → named ms = a ++ (name, v) :: b → (∀ e ∈ b, e.1 ≠ name) →
        ∃ i, mapGet c'.interfaces (utf8 name) = some i ∧ Describes (inside v) i) := by
  constructor
  · intro h
    cases hp : posted limit body with
    | none => rfl
    | some d =>
      obtain ⟨v, h1, h2, h3, h4⟩ := posted_some hp
      exact absurd ⟨v, h1, h2, h3, h4, rfl⟩ (h (inside v))
  · rintro ms ⟨v, hb, hd, ho, hs, rfl⟩
    rw [posted_of hb hd ho hs]
    generalize inside v = ms at hs
    obtain ⟨r1, r2, saved, r3, r4, r5⟩ := (C75_rule c (some (ms.foldl store ⟨fun _ => none, []⟩))).2 _ rfl (stored_typed ms)
    have hint : (ms.foldl store ⟨fun _ => none, []⟩).interfaces = (named ms).foldl putInterface [] := by
      rw [stores_interfaces]
      exact steps_named _ (fun w hw => hs.objects "Interfaces" (by simp) w hw)
    refine ⟨⟨saved, r3, r4, r5⟩, fun s h => ?_, fun s h hn => ?_, fun s h v hv => ?_, fun k i h => ?_, fun k h hn => ?_,
      fun name v a b h hn hb => ?_⟩
    · rw [r1, if_neg (fun e => h ((unset_iff hc s).2 e))]
    · rw [r1, if_pos ((unset_iff hc s).1 h), stores_val, steps_null s _ _ hn, (unset_iff hc s).1 h]
      rfl
    · have hm : v ∈ given ms s := by
        obtain ⟨_, a, b, e, _⟩ := hv
        rw [e]; simp
      rcases hs.settings s v hm with rfl | ⟨x, hx⟩
      · exact absurd rfl hv.1
      · refine ⟨x, hx, ?_⟩
        rw [r1, if_pos ((unset_iff hc s).1 h), stores_val, steps_last hv hx]
        rfl
    · rw [r2, h]
    · rw [r2, h, hint]
      exact get_puts _ _ _ hn
    · rw [r2, h, hint, hn, List.foldl_append, List.foldl_cons,
        get_puts _ _ _ (fun e he hc => hb e he (utf8_inj hc)), get_put, if_pos rfl]
      refine ⟨_, rfl, ?_⟩
      have hmem : (name, v) ∈ named ms := by rw [hn]; simp
      unfold named at hmem
      obtain ⟨w, hw, hin⟩ := List.mem_flatMap.mp hmem
      have hw : w ∈ vals ms "Interfaces" := by
        rw [List.mem_reverse] at hw
        exact List.mem_reverse.mp ((List.takeWhile_sublist _).subset hw)
      obtain ⟨k1, k2⟩ := hs.interfaces w hw _ hin
      exact interface_describe k1 k2

end Argo.Config
