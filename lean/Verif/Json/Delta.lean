import Verif.Json.Text
import Verif.Main.Values

set_option autoImplicit false

/-!
# Deltas as JSON (C104)

`json.Marshal` of the delta of a message (main/argo.go:196-208): what a client that reads JSON as RFC 8259 says
finds in the bytes it receives.
-/

namespace Argo.Json

open Argo
open Argo.Nmea2k (Val Parsed)
open Argo.Signalk (Str bs Time Stamp Value Update)

/-! ## Model -/

/-- What the encoding depends on besides the delta. -/
structure Enc where
  /-- Go 1.22 or later -/
  newer : Bool
  /-- the text of a `float32` or `float64` -/
  float : Val → List Byte
  /-- a `time.Time` of a message in the local zone -/
  asTime : Val → Option Time
  /-- `time.Now()` and its nanoseconds -/
  clock : Nat → Time × Nat

/-- `time.Time.MarshalJSON`. -/
def timeOut (t : Time) (ns : Nat) : Option Out := (timeText t ns).map (fun s => .str (ascii s))

/-- A value of `ParsedMessage.Data` (raw_message.go:127-174) in an `interface{}` (signalk.go:90-93). -/
def valOut (enc : Enc) : Val → Option Out
  | .nil => some .null
  | .u64 n => some (.num (bs (toString n)))
  | .sint _ n => some (.num (bs (toString n)))
  | .f64 n r => some (.num (enc.float (.f64 n r)))
  | .f32div n d => some (.num (enc.float (.f32div n d)))
  | .f64div n d => some (.num (enc.float (.f64div n d)))
  | .unix s => (enc.asTime (.unix s)).bind (timeOut · 0)
  | .clock h m s ns => (enc.asTime (.clock h m s ns)).bind (timeOut · (ns % 10 ^ 9))
  | .text s => some (.str (bs s))
  | .chars b => some (.str b)
  | .bytes b => some (.str (ascii (base64 b)))

/-- signalk.go:90-93 `value.Value`. -/
def valueOut (enc : Enc) : Value Val → Option Out
  | .plain v => valOut enc v
  | .text s => some (.str s)

/-- signalk.go:90-93 `value`, all of them; an error in one is an error. -/
def valuesOut (enc : Enc) : List (Str × Value Val) → Option (List Out)
  | [] => some []
  | (path, v) :: l =>
    match valueOut enc v, valuesOut enc l with
    | some o, some os => some (.obj [(bs "path", .str path), (bs "value", o)] :: os)
    | _, _ => none

/-- signalk.go:84-99 `source` and `update`, with the constants of signalk.go:121-131. -/
def updateOut (enc : Enc) (now : Nat) (u : Update Val) : Option Out :=
  match timeOut (enc.clock now).1 (enc.clock now).2, valuesOut enc u.values with
  | some t, some vs => some (.obj [
      (bs "source", .obj [(bs "pgn", .num (bs (toString u.pgn))), (bs "device", .str (bs "/dev/actisense")),
        (bs "src", .num (bs (toString u.source.toNat)))]),
      (bs "timestamp", t),
      (bs "values", .arr vs)])
  | _, _ => none

/-- An error in one element is an error. -/
def allSome {α : Type} : List (Option α) → Option (List α)
  | [] => some []
  | none :: _ => none
  | some x :: l => (allSome l).map (x :: ·)

/-- `json.Marshal` of a `delta` (signalk.go:101-104, 119, 184-188). -/
def marshal (enc : Enc) (now : Nat) (us : List (Update Val)) : Option (List Byte) :=
  (allSome (us.map (updateOut enc now))).map fun os => print enc.newer (.obj [
    (bs "context", .str (bs "vessels.urn:mrn:signalk:uuid:c0d79334-4e25-4245-8892-54e8ccc8021d")),
    (bs "updates", .arr os)])

/-! ## Specification -/

/-- A string of the JSON value. -/
def jstr (s : String) : Json := .str s.toList

/-- A natural number of the JSON value, in decimal. -/
def jnat (n : Nat) : Json := .num (bs (toString n))

/-- The JSON value shows the value of a delta: integers in decimal, floats as Go prints them, instants as
RFC 3339, texts as their characters, bytes as base64. -/
inductive Shown (enc : Enc) : Value Val → Json → Prop where
  | nothing : Shown enc (.plain .nil) .null
  | nat (n : Nat) : Shown enc (.plain (.u64 n)) (jnat n)
  | int (w : Nat) (n : Int) : Shown enc (.plain (.sint w n)) (.num (bs (toString n)))
  | float (n : Int) (r : Nmea2k.Res) : Shown enc (.plain (.f64 n r)) (.num (enc.float (.f64 n r)))
  | float32 (n : Int) (d : Nat) : Shown enc (.plain (.f32div n d)) (.num (enc.float (.f32div n d)))
  | quotient (n : Int) (d : Nat) : Shown enc (.plain (.f64div n d)) (.num (enc.float (.f64div n d)))
  | date {s : Nat} {t : Time} {text : List Char} : enc.asTime (.unix s) = some t → ShowsInstant t.stamp 0 text →
      Shown enc (.plain (.unix s)) (.str text)
  | time {h m s ns : Nat} {t : Time} {text : List Char} : enc.asTime (.clock h m s ns) = some t →
      ShowsInstant t.stamp (ns % 10 ^ 9) text → Shown enc (.plain (.clock h m s ns)) (.str text)
  | name (s : String) : Shown enc (.plain (.text s)) (jstr s)
  | chars (b : List Byte) : Shown enc (.plain (.chars b)) (.str (chars b))
  | bytes {b : List Byte} {text : List Char} : unbase64 text = some b → Shown enc (.plain (.bytes b)) (.str text)
  | text (s : Str) : Shown enc (.text s) (.str (Json.chars s))

/-- The JSON value is the delta of one message. -/
def DeltaJson (enc : Enc) (now : Nat) (pgn : Nat) (source : Byte) (values : List (Str × Value Val)) (j : Json) : Prop :=
  ∃ ts vs, ShowsInstant (enc.clock now).1.stamp (enc.clock now).2 ts ∧
    List.Forall₂ (fun pv v => ∃ x, Shown enc pv.2 x ∧
      v = Json.obj [("path".toList, .str (chars pv.1)), ("value".toList, x)]) values vs ∧
    j = .obj [
      ("context".toList, jstr "vessels.urn:mrn:signalk:uuid:c0d79334-4e25-4245-8892-54e8ccc8021d"),
      ("updates".toList, .arr [.obj [
        ("source".toList, .obj [("pgn".toList, jnat pgn), ("device".toList, jstr "/dev/actisense"),
          ("src".toList, jnat source.toNat)]),
        ("timestamp".toList, .str ts),
        ("values".toList, .arr vs)]])]

/-- The clock and zone of a computer: offsets below 100 hours, nanoseconds below a second. -/
structure Sane (enc : Enc) : Prop where
  float : ∀ v, IsNumber (enc.float v)
  zone : ∀ v t, enc.asTime v = some t → -360000 < t.off ∧ t.off < 360000
  nowZone : ∀ now, -360000 < (enc.clock now).1.off ∧ (enc.clock now).1.off < 360000
  nowNs : ∀ now, (enc.clock now).2 < 10 ^ 9

/-- The local zone, with offsets up to a day: dates are instants, times of day are on 1970-01-01; and the clock
shows a year from 0 to 9999. -/
structure Local (enc : Enc) : Prop where
  date : ∀ s, ∃ off, -86400 < off ∧ off < 86400 ∧ enc.asTime (.unix s) = some ⟨s, off⟩
  time : ∀ h m s ns, ∃ off, -86400 < off ∧ off < 86400 ∧
    enc.asTime (.clock h m s ns) = some (Time.date 1970 1 1 ((3600 * h + 60 * m + s + ns / 10 ^ 9 : Nat) : Int) off)
  year : ∀ now, 0 ≤ (enc.clock now).1.stamp.year ∧ (enc.clock now).1.stamp.year ≤ 9999

/-! ## Proofs -/

theorem timeOut_spec {t : Time} {ns : Nat} {o : Out} (h : timeOut t ns = some o) (hns : ns < 10 ^ 9)
    (h1 : -360000 < t.off) (h2 : t.off < 360000) :
    Numbers o ∧ ∃ s, ShowsInstant t.stamp ns s ∧ meaning o = .str s := by
  unfold timeOut at h
  obtain ⟨s, hs, rfl⟩ := Option.map_eq_some_iff.mp h
  refine ⟨by simp only [Numbers], s, rfc3339_spec hs hns h1 h2, ?_⟩
  simp only [meaning]
  rw [chars_ascii]
  unfold timeText at hs
  split at hs
  · injection hs with hs; subst hs; exact rfc3339_ascii _ _
  · cases hs

theorem valueOut_spec {enc : Enc} (hs : Sane enc) {v : Value Val} {o : Out} (h : valueOut enc v = some o) :
    Numbers o ∧ Shown enc v (meaning o) := by
  cases v with
  | text s =>
    simp only [valueOut] at h
    injection h with h; subst h
    exact ⟨by simp only [Numbers], by simp only [meaning]; exact .text s⟩
  | plain v =>
    simp only [valueOut] at h
    cases v with
    | nil =>
      simp only [valOut] at h; injection h with h; subst h
      exact ⟨by simp only [Numbers], by simp only [meaning]; exact .nothing⟩
    | u64 n =>
      simp only [valOut] at h; injection h with h; subst h
      exact ⟨by simp only [Numbers]; exact isNumber_nat n, by simp only [meaning]; exact .nat n⟩
    | sint w n =>
      simp only [valOut] at h; injection h with h; subst h
      exact ⟨by simp only [Numbers]; exact isNumber_int n, by simp only [meaning]; exact .int w n⟩
    | f64 n r =>
      simp only [valOut] at h; injection h with h; subst h
      exact ⟨by simp only [Numbers]; exact hs.float _, by simp only [meaning]; exact .float n r⟩
    | f32div n d =>
      simp only [valOut] at h; injection h with h; subst h
      exact ⟨by simp only [Numbers]; exact hs.float _, by simp only [meaning]; exact .float32 n d⟩
    | f64div n d =>
      simp only [valOut] at h; injection h with h; subst h
      exact ⟨by simp only [Numbers]; exact hs.float _, by simp only [meaning]; exact .quotient n d⟩
    | unix s =>
      simp only [valOut] at h
      obtain ⟨t, ht, h⟩ := Option.bind_eq_some_iff.mp h
      obtain ⟨a, s', b, c⟩ := timeOut_spec h (by omega) (hs.zone _ _ ht).1 (hs.zone _ _ ht).2
      exact ⟨a, by rw [c]; exact .date ht b⟩
    | clock hh m s ns =>
      simp only [valOut] at h
      obtain ⟨t, ht, h⟩ := Option.bind_eq_some_iff.mp h
      obtain ⟨a, s', b, c⟩ := timeOut_spec h (by omega) (hs.zone _ _ ht).1 (hs.zone _ _ ht).2
      exact ⟨a, by rw [c]; exact .time ht b⟩
    | text s =>
      simp only [valOut] at h; injection h with h; subst h
      refine ⟨by simp only [Numbers], ?_⟩
      simp only [meaning]; rw [chars_bs]; exact .name s
    | chars b =>
      simp only [valOut] at h; injection h with h; subst h
      exact ⟨by simp only [Numbers], by simp only [meaning]; exact .chars b⟩
    | bytes b =>
      simp only [valOut] at h; injection h with h; subst h
      refine ⟨by simp only [Numbers], ?_⟩
      simp only [meaning]; rw [chars_ascii (base64_ascii b)]; exact .bytes (unbase64_base64 b)

theorem valuesOut_spec {enc : Enc} (hs : Sane enc) {l : List (Str × Value Val)} {os : List Out}
    (h : valuesOut enc l = some os) :
    NumbersL os ∧ List.Forall₂ (fun pv v => ∃ x, Shown enc pv.2 x ∧
      v = Json.obj [("path".toList, .str (chars pv.1)), ("value".toList, x)]) l (meanings os) := by
  induction l generalizing os with
  | nil =>
    simp only [valuesOut] at h; injection h with h; subst h
    exact ⟨by simp only [NumbersL], by simp only [meanings]; exact .nil⟩
  | cons pv l ih =>
    obtain ⟨path, v⟩ := pv
    simp only [valuesOut] at h
    cases h1 : valueOut enc v with
    | none => rw [h1] at h; cases h
    | some o =>
      cases h2 : valuesOut enc l with
      | none => rw [h1, h2] at h; cases h
      | some os' =>
        rw [h1, h2] at h
        injection h with h; subst h
        obtain ⟨a, b⟩ := valueOut_spec hs h1
        obtain ⟨a', b'⟩ := ih h2
        refine ⟨by simp only [NumbersL, Numbers, NumbersO]; exact ⟨⟨trivial, a, trivial⟩, a'⟩, ?_⟩
        simp only [meanings, meaning, fields]
        refine .cons ⟨_, b, ?_⟩ b'
        rw [chars_bs, chars_bs]

theorem updateOut_some {enc : Enc} {now : Nat} {u : Update Val} {o : Out} (h : updateOut enc now u = some o) :
    ∃ t vs, timeOut (enc.clock now).1 (enc.clock now).2 = some t ∧ valuesOut enc u.values = some vs ∧
      o = .obj [
      (bs "source", .obj [(bs "pgn", .num (bs (toString u.pgn))), (bs "device", .str (bs "/dev/actisense")),
        (bs "src", .num (bs (toString u.source.toNat)))]),
      (bs "timestamp", t),
      (bs "values", .arr vs)] := by
  unfold updateOut at h
  split at h
  · rename_i t vs h1 h2
    exact ⟨t, vs, h1, h2, (Option.some.inj h).symm⟩
  · cases h

theorem allSome_one {α : Type} {x : Option α} {os : List α} (h : allSome [x] = some os) : ∃ o, x = some o ∧ os = [o] := by
  cases x with
  | none => cases h
  | some o => exact ⟨o, rfl, (Option.some.inj h).symm⟩

/-- **C104** (contents): the bytes of an encoded delta are a JSON text with one value: that of the delta, with the
PGN, source, time and values. -/
theorem C104_delta {enc : Enc} (hs : Sane enc) {now pgn : Nat} {source : Byte} {values : List (Str × Value Val)}
    {b : List Byte} (h : marshal enc now [⟨pgn, source, values⟩] = some b) :
    ∃ j, DeltaJson enc now pgn source values j ∧ ∀ j', Reads b j' ↔ j' = j := by
  unfold marshal at h
  obtain ⟨os, hos, rfl⟩ := Option.map_eq_some_iff.mp h
  clear h
  obtain ⟨o, ho, rfl⟩ := allSome_one hos
  obtain ⟨t, vs, h1, h2, rfl⟩ := updateOut_some ho
  obtain ⟨n1, ts, s1, m1⟩ := timeOut_spec h1 (hs.nowNs now) (hs.nowZone now).1 (hs.nowZone now).2
  obtain ⟨n2, f2⟩ := valuesOut_spec hs h2
  refine ⟨_, ⟨ts, meanings vs, s1, f2, rfl⟩, fun j' => ?_⟩
  rw [reads_print_iff]
  · simp only [meaning, meanings, fields, m1, chars_bs, jstr, jnat]
  · simp only [Numbers, NumbersL, NumbersO]
    exact ⟨trivial, ⟨⟨⟨isNumber_nat _, trivial, isNumber_nat _, trivial⟩, n1, n2, trivial⟩, trivial⟩, trivial⟩

/-! ## Decoded messages can be encoded -/

/-- Dates are below 2^32 seconds, times of day below 5 days, with less than a second of nanoseconds. -/
def Small : Val → Prop
  | .unix s => s < 2 ^ 32
  | .clock h m s ns => 3600 * h + 60 * m + s < 429497 ∧ ns < 10 ^ 8
  | _ => True

section
open Argo.Nmea2k
variable {tbl : List Pgn} {env : Nmea2k.Env} {m : RawMessage}

theorem numberValue_small (f : Field) (n : Nat) : Small (numberValue f n) := by
  unfold numberValue
  repeat' split
  all_goals trivial

theorem extractNumber_small {f : Field} {a b c d : Nat} {v : Val} (h : extractNumber m f a b c d = .ok (some v)) :
    Small v := by
  unfold extractNumber at h
  simp only [bind, Except.bind, pure, Except.pure] at h
  repeat' split at h
  all_goals first
    | cases h; done
    | (injection h with h; injection h with h; subst h; exact numberValue_small _ _)

theorem extractDate_small {a b : Nat} {v : Val} (h : extractDate m a b = .ok (some v)) : Small v := by
  unfold extractDate at h
  simp only [bind, Except.bind, pure, Except.pure] at h
  repeat' split at h
  all_goals first
    | cases h; done
    | (injection h with h; injection h with h; subst h; exact Nat.mod_lt _ (by decide))

theorem extractTime_small {a b : Nat} {v : Val} (h : extractTime m a b = .ok (some v)) : Small v := by
  unfold extractTime at h
  simp only [bind, Except.bind, pure, Except.pure] at h
  cases hd : m.data.sub a b with
  | error e => rw [hd] at h; cases h
  | ok sl =>
    rw [hd] at h
    simp only at h
    split at h
    · cases h
    · rename_i hl
      split at h
      · cases h
      · injection h with h; injection h with h; subst h
        have := leNat_lt sl.vis
        have e : sl.vis.length = 4 := by omega
        rw [e] at this
        simp only [Small]
        omega

theorem lookup_small {f : Field} {a b c d : Nat} {v : Val} (h : extractLookupField env m f a b c d = .ok (some v)) :
    Small v := by
  unfold extractLookupField at h
  simp only [bind, Except.bind, pure, Except.pure] at h
  cases hn : extractNumber m f a b c d with
  | error e => rw [hn] at h; cases h
  | ok r =>
    rw [hn] at h
    cases r with
    | none => cases h
    | some n =>
      have hsm := extractNumber_small hn
      simp only at h
      repeat' split at h
      all_goals first
        | (cases h; done)
        | (cases h; exact hsm)

theorem subfield_small {f : Field} {sn a b c d : Nat} {v : Val}
    (h : extractLookupSubfield env m f sn a b c d = .ok (some v)) : Small v := by
  unfold extractLookupSubfield at h
  simp only [bind, Except.bind, pure, Except.pure] at h
  cases hn : extractNumber m f a b c d with
  | error e => rw [hn] at h; cases h
  | ok r =>
    rw [hn] at h
    cases r with
    | none => cases h
    | some n =>
      have hsm := extractNumber_small hn
      simp only at h
      repeat' split at h
      all_goals first
        | (cases h; done)
        | (cases h; exact hsm)

theorem lookup2_small {d : Pgn} {dm : DataMap} {f : Field} {a b c e : Nat} {v : Val}
    (h : extractLookup2 env m d dm f a b c e = .ok (some v)) : Small v := by
  unfold extractLookup2 at h
  simp only [bind, Except.bind, pure, Except.pure] at h
  repeat' split at h
  all_goals first | exact subfield_small h | cases h

theorem manufacturer_small {f : Field} {a b c d : Nat} {v : Val}
    (h : extractManufacturer env m f a b c d = .ok (some v)) : Small v := by
  unfold extractManufacturer at h
  simp only [bind, Except.bind, pure, Except.pure] at h
  cases hn : extractNumber m f a b c d with
  | error e => rw [hn] at h; cases h
  | ok r =>
    rw [hn] at h
    cases r with
    | none => cases h
    | some n =>
      have hsm := extractNumber_small hn
      simp only at h
      repeat' split at h
      all_goals first
        | (cases h; done)
        | (cases h; exact hsm)

theorem decodeField_small {d : Pgn} {dm : DataMap} {f : Field} {a b c e : Nat} {v : Val}
    (h : decodeField env m d dm f a b c e = .ok (some v)) : Small v := by
  unfold decodeField at h
  split at h
  all_goals first
    | exact extractDate_small h
    | exact extractTime_small h
    | exact extractNumber_small h
    | exact lookup_small h
    | exact lookup2_small h
    | exact manufacturer_small h
    | skip
  all_goals
    try simp only [extractLatLon, extractScaled16, extract6BitASCII, extractStringLZ, extractString, bind, Except.bind,
      pure, Except.pure] at h
    repeat' split at h
  all_goals first
    | (injection h with h; injection h with h; subst h; trivial)
    | cases h

theorem set_small {dm : DataMap} (h : ∀ e ∈ dm, Small e.2) (k : Nat) {v : Val} (hv : Small v) :
    ∀ e ∈ dm.set k v, Small e.2 := by
  unfold DataMap.set
  intro e he
  split at he
  · obtain ⟨x, hx, rfl⟩ := List.mem_map.mp he
    split
    · exact hv
    · exact h x hx
  · rcases List.mem_append.mp he with he | he
    · exact h e he
    · rw [List.mem_singleton.mp he]; exact hv

theorem parsed_small {p : Parsed} (h : ParsePacket tbl env m (.ok p)) : ∀ e ∈ p.data, Small e.2 := by
  have hne : tbl ≠ [] := by
    rintro rfl
    obtain ⟨n, hn⟩ := h
    simp [parsePacketN, first, firstFrom] at hn
  obtain ⟨i, d, hf, hd, _⟩ := C33_first tbl m.pgn hne
  obtain ⟨jj, q, hl, _, _⟩ := C33_last tbl m.pgn hne
  rw [ParsePacket_iff hf hl] at h
  obtain ⟨n, hn⟩ := h
  obtain ⟨s', hP, hok, _⟩ := run_inv (fun s => ∀ e ∈ s.data, Small e.2) (fun s s' hs hst => by
    obtain ⟨field, r, i', d', index', _, _, _, _, hr, _, rfl⟩ := step_inl hst
    refine set_small hs _ ?_
    cases r with
    | none => trivial
    | some v => exact decodeField_small hr) (by intro e he; cases he) hn
  obtain ⟨rfl, _⟩ := step_inr (hok p rfl)
  exact hP

end

theorem timeText_some {sec off : Int} (h1 : -86400 ≤ sec + off) (h2 : sec + off < 2 ^ 33) (ns : Nat) :
    timeOut ⟨sec, off⟩ ns ≠ none := by
  unfold timeOut timeText
  rw [if_pos]
  · simp
  · have e : (Time.stamp ⟨sec, off⟩).year = (Signalk.civil (Time.day ⟨sec, off⟩)).1 := rfl
    rw [e]
    have d1 : -1 ≤ Time.day ⟨sec, off⟩ := by unfold Time.day; simp only; omega
    have d2 : Time.day ⟨sec, off⟩ ≤ 99421 := by unfold Time.day; simp only; omega
    unfold Signalk.civil
    simp only
    generalize Time.day ⟨sec, off⟩ = n at *
    have y0 : 0 ≤ ((n + 719468) % 146097 - (n + 719468) % 146097 / 1460 + (n + 719468) % 146097 / 36524 -
      (n + 719468) % 146097 / 146096) / 365 := by omega
    have y1 : ((n + 719468) % 146097 - (n + 719468) % 146097 / 1460 + (n + 719468) % 146097 / 36524 -
      (n + 719468) % 146097 / 146096) / 365 < 400 := by omega
    generalize ((n + 719468) % 146097 - (n + 719468) % 146097 / 1460 + (n + 719468) % 146097 / 36524 -
      (n + 719468) % 146097 / 146096) / 365 = yoe at *
    have e0 : 4 ≤ (n + 719468) / 146097 := by omega
    have e1 : (n + 719468) / 146097 ≤ 6 := by omega
    generalize (n + 719468) / 146097 = era at *
    split <;> omega

theorem valOut_some {enc : Enc} (hl : Local enc) {v : Val} (h : Small v) : valOut enc v ≠ none := by
  cases v <;> simp only [valOut, ne_eq, reduceCtorEq, not_false_eq_true]
  · rename_i s
    obtain ⟨off, o1, o2, ho⟩ := hl.date s
    rw [ho, Option.bind_some]
    simp only [Small] at h
    exact timeText_some (by omega) (by omega) _
  · rename_i hh m s ns
    obtain ⟨off, o1, o2, ho⟩ := hl.time hh m s ns
    rw [ho, Option.bind_some]
    simp only [Small] at h
    have e : Time.date 1970 1 1 ((3600 * hh + 60 * m + s + ns / 10 ^ 9 : Nat) : Int) off =
        ⟨((3600 * hh + 60 * m + s + ns / 10 ^ 9 : Nat) : Int) - off, off⟩ := by
      have hd : Signalk.dayNumber 1970 1 1 = 0 := by decide
      unfold Time.date
      show Time.mk ((Signalk.dayNumber 1970 1 1 + 0) * 86400 + _ - off) off = _
      rw [hd]
      simp
    rw [e]
    exact timeText_some (by omega) (by omega) _

theorem valuesOut_some {enc : Enc} (hl : Local enc) {l : List (Str × Value Val)}
    (h : ∀ path v, (path, Value.plain v) ∈ l → Small v) : valuesOut enc l ≠ none := by
  induction l with
  | nil => simp [valuesOut]
  | cons pv l ih =>
    obtain ⟨path, v⟩ := pv
    have hv : valueOut enc v ≠ none := by
      cases v with
      | plain v => exact valOut_some hl (h path v (by simp))
      | text s => simp [valueOut]
    have hr := ih (fun p v hm => h p v (List.mem_cons_of_mem _ hm))
    cases h1 : valueOut enc v with
    | none => exact absurd h1 hv
    | some o =>
      cases h2 : valuesOut enc l with
      | none => exact absurd h2 hr
      | some os => simp [valuesOut, h1, h2]

theorem marshal_some {enc : Enc} (hl : Local enc) {now pgn : Nat} {source : Byte} {l : List (Str × Value Val)}
    (h : ∀ path v, (path, Value.plain v) ∈ l → Small v) : ∃ b, marshal enc now [⟨pgn, source, l⟩] = some b := by
  have hv := valuesOut_some hl h
  have ht : timeOut (enc.clock now).1 (enc.clock now).2 ≠ none := by
    unfold timeOut timeText
    rw [if_pos (hl.year now)]; simp
  cases h1 : timeOut (enc.clock now).1 (enc.clock now).2 with
  | none => exact absurd h1 ht
  | some t =>
    cases h2 : valuesOut enc l with
    | none => exact absurd h2 hv
    | some vs =>
      have : ∃ o, updateOut enc now ⟨pgn, source, l⟩ = some o := by
        unfold updateOut
        rw [h1, h2]; exact ⟨_, rfl⟩
      obtain ⟨o, ho⟩ := this
      have : allSome ([(⟨pgn, source, l⟩ : Update Val)].map (updateOut enc now)) = some [o] := by
        rw [List.map_cons, List.map_nil, ho]; rfl
      unfold marshal
      rw [this]
      exact ⟨_, rfl⟩

/-- **C104** (no losses): whatever is reported of a decoded message can be encoded. -/
theorem C104_total {enc : Enc} (hl : Local enc) {denv : Signalk.Env Val} {env : Nmea2k.Env} {raw : RawMessage}
    {p : Parsed} (hp : Nmea2k.ParsePacket Nmea2k.Table.pgnList env raw (.ok p)) {values : List (Str × Value Val)}
    (hr : Main.Reports denv p values) (now pgn : Nat) (source : Byte) :
    ∃ b, marshal enc now [⟨pgn, source, values⟩] = some b := by
  refine marshal_some hl fun path v hm => ?_
  obtain ⟨d, order, _, hperm, hpl, _⟩ := hr
  have := Signalk.mem_plainPart.mpr hm
  rw [hpl, List.mem_filterMap] at this
  obtain ⟨⟨k, o⟩, hmem, hcon⟩ := this
  unfold Signalk.Spec.contribution at hcon
  obtain ⟨pg, _, hcon⟩ := Option.bind_eq_some_iff.mp hcon
  obtain ⟨val', hval, hcon⟩ := Option.bind_eq_some_iff.mp hcon
  simp only at hval
  split at hcon
  · cases hcon
  · injection hcon with hcon
    injection hcon with _ c2
    subst c2
    obtain ⟨e, he, hek⟩ := List.mem_map.mp hmem
    injection hek with _ hek
    have hs := parsed_small hp e (hperm.subset he)
    rw [hval] at hek
    split at hek
    · cases hek
    · injection hek with hek; rw [← hek]; exact hs

/-! ## The clients -/

section
open Argo.Main
variable {sort : List String → List String} {opts : Opts} {out : Outputs} {verbose : Bool} {denv : Signalk.Env Val}
  {enc : Enc}

/-- **C104** (clients): whatever the interfaces receive, everything a client receives, at any moment of any
schedule, is a JSON text with one value, the delta of a message made of something an interface received: its PGN,
its source and exactly the values reported of it. -/
theorem C104_client (hs : Sane enc) {env : Nmea2k.Env} {parse : RawMessage → GoM Parsed}
    (hparse : ∀ m, Nmea2k.ParsePacket Nmea2k.Table.pgnList env m (parse m)) (mem : Nat → Nat → List Byte)
    (g : Nat → Nat) (fp : List Nat) (bus : List (Nat × Ev)) (inputs : Nat → Input)
    {es : List (SysEvent Body (List Byte))} (ho : Ordinary es)
    (hfeed : Feeds es (fun i => (inputs i).acts parse mem g fp bus i)) {s : Sys Body (List Byte)}
    (h : sysExec (shippedProgram sort opts out verbose denv (marshal enc)) Sys.init es = some (.ok s))
    {c : Hub.Id} (hc : Hub.Spec.registered c (wsTrace es)) {b : List Byte} (hb : b ∈ s.ws.got c) :
    ∃ i p values now j, (inputs i).Made env fp bus i p ∧ Reports denv p values ∧ values ≠ [] ∧
      DeltaJson enc now p.header.pgn p.header.source values j ∧ ∀ j', Reads b j' ↔ j' = j := by
  obtain ⟨i, p, values, now, h1, h2, h3, h4⟩ := C99_contents hparse mem g fp bus inputs ho hfeed h hc hb
  obtain ⟨j, h5, h6⟩ := C104_delta hs h4
  exact ⟨i, p, values, now, j, h1, h2, h3, h5, h6⟩

/-- **C104** (from the bits on the wire to the JSON of the client): as `C99_wire`, without supposing that deltas
can be encoded: the client has received a JSON text with the PGN and source of the frame and the value of the bits
of every field under the path the mapping file has for it. -/
theorem C104_wire (hs : Sane enc) (hl : Local enc) {env : Nmea2k.Env} {parse : RawMessage → GoM Parsed}
    (hparse : ∀ m, Nmea2k.ParsePacket Nmea2k.Table.pgnList env m (parse m)) (mem : Nat → Nat → List Byte)
    (g : Nat → Nat) (fp : List Nat) (bus : List (Nat × Ev)) (inputs : Nat → Input)
    {es : List (SysEvent Body (List Byte))} (hord : Ordinary es)
    (hall : ∀ i, (readBy i es).map parsedOf = Iface.handed ((inputs i).acts parse mem g fp bus i))
    (hperm : ∀ i, ∀ m ∈ readBy i es, m.body.order.Perm m.body.data) {s : Sys Body (List Byte)}
    (h : sysExec (shippedProgram sort opts out verbose denv (marshal enc)) Sys.init es = some (.ok s))
    (hp : ∀ i, s.pending i = none) (ht : s.todo = []) (hpc : s.ws.pc = .idle) (hw : out.websockets = true)
    {c : Hub.Id} (hc : Hub.Spec.registered c (wsTrace es)) (h0 : before c (wsTrace es) = 0)
    (hin : c ∈ s.ws.conns) (hbuf : (s.ws.chan c).buf = []) {n : Nat} {fs : List (List Ev × List Byte)}
    (hn : inputs n = .ngt (fs.flatMap (fun f => f.1 ++ Actisense.stream (NgtSpec.wire f.2))))
    (hq : ∀ f ∈ fs, Actisense.Quiet f.1)
    (hv : ∀ f ∈ fs, NgtSpec.verdict f.2 ≠ .crash ∧ NgtSpec.verdict f.2 ≠ .overrun)
    (hh : ∀ f ∈ fs, ∀ v, NgtSpec.accepted f.2 = some v → Iface.Harmless v)
    {frame : List Ev × List Byte} (hframe : frame ∈ fs) {v : MsgView} (hacc : NgtSpec.accepted frame.2 = some v)
    {i : Nat} {d : Nmea2k.Pgn} (ho : Nmea2k.Spec.onlyDefinition Nmea2k.Table.pgnList v.pgn i d)
    (h60928 : v.pgn ≠ 60928) (hrep : d.repeatingFields = 0)
    (hlz : ∀ k f, d.fieldList[k]? = some f → f.res = .stringLZ →
      Nmea2k.lzSafe v.data (Nmea2k.Spec.position d.fieldList k / 8))
    (hlen : Nmea2k.Spec.position d.fieldList d.fieldList.length ≤ 8 * v.data.length) :
    ∃ values, (∀ path val, (path, Value.plain val) ∈ values ↔
        ∃ k, OnWire env v d k = some val ∧ Named denv env v d k path) ∧
      (values ≠ [] → ∃ now, ∃ b ∈ s.ws.got c, ∃ j, DeltaJson enc now v.pgn v.source values j ∧
        ∀ j', Reads b j' ↔ j' = j) := by
  obtain ⟨values, h1, h2⟩ := wire_received hparse mem g fp bus inputs hord hall hperm h hp ht hpc hw hc h0 hin hbuf hn
    hq hv hh hframe hacc ho h60928 hrep hlz hlen (fun p values now hd hr hm => by
      obtain ⟨b, hb⟩ := C104_total hl hd.2 hr now v.pgn v.source
      rw [hb] at hm; cases hm)
  refine ⟨values, h1, fun hne => ?_⟩
  obtain ⟨now, b, hb, hm⟩ := h2 hne
  obtain ⟨j, h3, h4⟩ := C104_delta hs hm
  exact ⟨now, b, hb, j, h3, h4⟩

end

/-! ## Examples -/

/-- A computer in the zone UTC-5, at 2016-05-01 12:00:00.12 UTC; every float is printed as `0.5`. -/
def exampleEnc : Enc where
  newer := false
  float _ := [48, 46, 53]
  asTime v :=
    match v with
    | .unix s => some ⟨s, -18000⟩
    | .clock h m s ns => some (Time.date 1970 1 1 ((3600 * h + 60 * m + s + ns / 10 ^ 9 : Nat) : Int) (-18000))
    | _ => none
  clock _ := (⟨1462104000, -18000⟩, 120000000)

theorem example_sane : Sane exampleEnc where
  float _ := show number [48, 46, 53] = some ([48, 46, 53], []) by decide +kernel
  zone v t h := by
    have e : t.off = -18000 := by
      cases v <;> simp only [exampleEnc, reduceCtorEq, Option.some.injEq] at h <;> subst h <;> rfl
    omega
  nowZone _ := show -360000 < (-18000 : Int) ∧ (-18000 : Int) < 360000 by decide
  nowNs _ := show 120000000 < 10 ^ 9 by decide

theorem example_local : Local exampleEnc where
  date s := ⟨-18000, by decide, by decide, rfl⟩
  time h m s ns := ⟨-18000, by decide, by decide, rfl⟩
  year _ := show 0 ≤ (Time.stamp ⟨1462104000, -18000⟩).year ∧ (Time.stamp ⟨1462104000, -18000⟩).year ≤ 9999 by
    decide +kernel

/-- A delta on the wire: quotes in texts are escaped, invalid bytes replaced. -/
example : (marshal exampleEnc 0 [⟨127250, 1, [(bs "navigation.headingMagnetic", .plain (.f64 770 (.scale "RES_DEGREES"))),
      (bs "a", .plain (.chars [34, 60, 255])), (bs "b", .plain (.bytes [1, 2])), (bs "t", .plain (.clock 1 2 3 0))]⟩]).map
      (fun b => String.ofList (chars b)) =
    some ("{\"context\":\"vessels.urn:mrn:signalk:uuid:c0d79334-4e25-4245-8892-54e8ccc8021d\",\"updates\":[{\"source\":" ++
      "{\"pgn\":127250,\"device\":\"/dev/actisense\",\"src\":1},\"timestamp\":\"2016-05-01T07:00:00.12-05:00\"," ++
      "\"values\":[{\"path\":\"navigation.headingMagnetic\",\"value\":0.5}," ++
      "{\"path\":\"a\",\"value\":\"\\\"\\u003c\\ufffd\"},{\"path\":\"b\",\"value\":\"AQI=\"}," ++
      "{\"path\":\"t\",\"value\":\"1970-01-01T01:02:03-05:00\"}]}]}") := by decide +kernel

/-! ### A run -/

section
open Argo.Main

/-- What client 5 receives. -/
def runJson : List Byte :=
  (marshal exampleEnc 5 [⟨127250, 1, [(bs "navigation.headingMagnetic", .plain (.f64 770 (.scale "RES_DEGREES")))]⟩]).getD []

def jsonProgram : Program Body (List Byte) :=
  shippedProgram (List.insertionSort (· ≤ ·)) Opts.default ⟨true, false⟩ true runEnv (marshal exampleEnc)

/-- Client 5 registers, the heading is read, taken, logged, counted and broadcast. -/
def jsonRun : List (SysEvent Body (List Byte)) :=
  [.ws (.register 5), .read 0 (some runMsg), .take 0, .act, .statistics [("127250", 1)] [], .st .hub,
    .delta runJson [5], .ws .hub, .ws .hub, .ws (.read 5)]

theorem jsonRun_reads (i : Nat) : readBy i jsonRun = if i = 0 then [runMsg] else [] := by
  by_cases h : 0 = i
  · subst h; rfl
  · have h' : i ≠ 0 := fun e => h e.symm
    simp [jsonRun, readBy, h, h']

theorem jsonRun_all : ∀ i, (readBy i jsonRun).map parsedOf =
    Iface.handed ((runInput i).acts (Iface.someParse runTables) (fun _ _ => []) (fun _ => 0) [] [] i) := by
  intro i
  rw [← run_all i, run_reads, jsonRun_reads]

theorem jsonRun_ordinary : Ordinary jsonRun := by
  refine ⟨?_, ?_, ?_, ?_⟩
  · intro a b c h
    have e : wsTrace jsonRun = .register 5 :: [.broadcast runJson [5], .hub, .hub, .read 5] := rfl
    rw [e] at h
    cases a with
    | nil => simp [Hub.Spec.touched]
    | cons x a =>
      exfalso
      simp only [List.cons_append, List.cons.injEq] at h
      have : (Hub.Event.register c : Hub.Event (List Byte)) ∈ a ++ .register c :: b := by simp
      rw [← h.2] at this
      simp at this
  · intro a b c h
    exfalso
    have : (Hub.Event.register c : Hub.Event Counters) ∈ stTrace jsonRun := by rw [h]; simp
    simp [stTrace, jsonRun] at this
  · intro c hc
    simp [wsTrace, jsonRun] at hc
  · intro c hc
    simp [stTrace, jsonRun] at hc

/-- The run meets the hypotheses of `C104_wire`: the heading on the wire reaches client 5 as JSON. -/
example : ∃ s, sysExec jsonProgram Sys.init jsonRun = some (.ok s) ∧
    ∃ values, (bs "navigation.headingMagnetic", Value.plain (.f64 770 (.scale "RES_DEGREES"))) ∈ values ∧
      ∃ now, ∃ b ∈ s.ws.got 5, ∃ j, DeltaJson exampleEnc now 127250 1 values j ∧ ∀ j', Reads b j' ↔ j' = j := by
  have hx : (match sysExec jsonProgram Sys.init jsonRun with
    | some (.ok s) => (s.pending 0).isNone && decide (s.todo.length = 0) &&
        (match s.ws.pc with | .idle => true | _ => false) &&
        decide (5 ∈ s.ws.conns) && decide ((s.ws.chan 5).buf = [])
    | _ => false) = true := by decide +kernel
  cases hs : sysExec jsonProgram Sys.init jsonRun with
  | none => rw [hs] at hx; cases hx
  | some r =>
    cases r with
    | error e => rw [hs] at hx; cases hx
    | ok s =>
      rw [hs] at hx
      simp only [Bool.and_eq_true, decide_eq_true_eq, List.length_eq_zero_iff] at hx
      obtain ⟨⟨⟨⟨hp0, ht⟩, hpc⟩, hin⟩, hbuf⟩ := hx
      have hpc' : s.ws.pc = .idle := by revert hpc; cases s.ws.pc <;> simp
      have hperm : ∀ i, ∀ m ∈ readBy i jsonRun, m.body.order.Perm m.body.data := by
        intro i m hm
        rw [jsonRun_reads] at hm
        split at hm
        · rw [List.mem_singleton.mp hm]
          exact (List.reverse_perm runMsg.body.data : (runMsg.body.data.reverse).Perm _)
        · cases hm
      have hp : ∀ i, s.pending i = none := by
        intro i
        by_cases hi : i = 0
        · subst hi; exact Option.isNone_iff_eq_none.mp hp0
        · have := C69_order hs i
          rw [jsonRun_reads, if_neg hi] at this
          have := (List.append_eq_nil_iff.mp this).2
          revert this; cases s.pending i <;> simp
      have hacc : NgtSpec.accepted Actisense.sampleContent = some Actisense.sampleView := by decide
      obtain ⟨values, h1, h2⟩ := C104_wire example_sane example_local (Iface.someParse_spec runTables) (fun _ _ => [])
        (fun _ => 0) [] [] runInput jsonRun_ordinary jsonRun_all hperm hs hp ht hpc' rfl (c := 5)
        (by simp [jsonRun, wsTrace, Hub.Spec.registered]) (by rfl) hin hbuf
        (n := 0) (fs := [([], Actisense.sampleContent)]) (by simp [runInput])
        (by intro f hf e he; rw [List.mem_singleton.mp hf] at he; cases he)
        (by decide)
        (by
          intro f hf v hv
          rw [List.mem_singleton.mp hf, hacc] at hv
          cases hv
          exact Iface.C90_harmless (by decide))
        (List.mem_singleton.mpr rfl) hacc
        (Nmea2k.onlyB_spec (i := 77) (d := Nmea2k.Table.p77) (by decide +kernel) (by decide +kernel)) (by decide) rfl
        (by
          intro k f hf hres
          exact absurd hres (Nmea2k.noLZ_spec (d := Nmea2k.Table.p77) (by decide +kernel) hf))
        (by decide +kernel)
      have hmem : (bs "navigation.headingMagnetic", Value.plain (.f64 770 (.scale "RES_DEGREES"))) ∈ values := by
        refine (h1 _ _).mpr ⟨1, by decide +kernel, (Signalk.Spec.pairs Signalk.MapTable.maps).take 43, Signalk.MapTable.m40,
          ⟨127250, ⟨[], []⟩, bs "1", [], [], [], [], [⟨bs "eq", 4, bs "Magnetic"⟩]⟩,
          (Signalk.Spec.pairs Signalk.MapTable.maps).drop 44, by decide +kernel, ⟨rfl, by decide +kernel, by decide +kernel⟩, ?_,
          by decide +kernel, by decide +kernel⟩
        intro q hq hask
        have : ∀ q ∈ (Signalk.Spec.pairs Signalk.MapTable.maps).take 43, q.2.pgn ≠ 127250 := by decide +kernel
        exact this q hq hask.1
      exact ⟨s, rfl, values, hmem, h2 (fun h => by rw [h] at hmem; cases hmem)⟩

end

end Argo.Json
