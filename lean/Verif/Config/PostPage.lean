import Verif.Config.PostProps
import Verif.Http.Types

set_option autoImplicit false

/-! # C133: what the settings page posts is what the form says -/

namespace Argo.Config

open Argo
open Argo.Json (Json)
open Argo.Signalk (bs)

/-! ## Specification -/

/-- The whole numbers of the Number type: up to 53 digits in base 2, and zeros. -/
def IsDouble (n : Int) : Prop := ∃ (m : Int) (e : Nat), m.natAbs < 2 ^ 53 ∧ n = m * 2 ^ e

/-- Number::toString of ECMAScript for whole numbers: exact up to 2^53, then a whole number of which the number is the nearest of the
Number type (the one with the fewest digits: for 2^63 it has sixteen), with an exponent from 10^21 on, and always a JSON number. -/
structure Prints (print : Int → Str) : Prop where
  exact : ∀ n : Int, n.natAbs ≤ 2 ^ 53 → print n = bs (toString n)
  whole : ∀ n : Int, n.natAbs < 10 ^ 21 → ∃ k : Int, print n = bs (toString k) ∧ (k - n).natAbs * 2 ^ 53 ≤ n.natAbs
  edge : print (2 ^ 63) = bs (toString (9223372036854776000 : Int)) ∧ print (-2 ^ 63) = bs (toString (-9223372036854776000 : Int))
  huge : ∀ n : Int, 10 ^ 21 ≤ n.natAbs → (101 : UInt8) ∈ print n
  number : ∀ n : Int, Json.IsNumber (print n)

/-- The texts in the form are texts. -/
def Texts (f : Form) : Prop := ∀ s, ∃ cs, f.text s = utf8 cs

/-! ## Proofs: reading -/

/-- A text is read as this value, whatever follows. -/
def ReadsAs (t : Str) (v : Json) : Prop := ∀ r, Json.Stop r → ∃ n, Json.value n (t ++ r) = some (v, r)

theorem esc_high {b : UInt8} (h : ¬ b.toNat < 0x80) : jsEsc b = [b] := by
  have key : ∀ b : Fin 256, ¬ b.val < 0x80 → jsEsc (UInt8.ofNat b.val) = [UInt8.ofNat b.val] := by decide +kernel
  have := key ⟨b.toNat, b.toNat_lt⟩ h
  simpa only [UInt8.ofNat_toNat] using this

theorem esc_newer {b : UInt8} (h : b.toNat < 0x80) (h2 : b ≠ 60 ∧ b ≠ 62 ∧ b ≠ 38) : jsEsc b = Json.escByte true b := by
  have key : ∀ b : Fin 256, b.val < 0x80 → (UInt8.ofNat b.val ≠ 60 ∧ UInt8.ofNat b.val ≠ 62 ∧ UInt8.ofNat b.val ≠ 38) →
      jsEsc (UInt8.ofNat b.val) = Json.escByte true (UInt8.ofNat b.val) := by decide +kernel
  have := key ⟨b.toNat, b.toNat_lt⟩ h
  simp only [UInt8.ofNat_toNat] at this
  exact this h2

theorem esc_low {b : UInt8} (hb : b.toNat < 0x80) (r : List UInt8) :
    Json.character (jsEsc b ++ r) = some (Char.ofNat b.toNat, r) ∧ (jsEsc b ++ r).head? ≠ some 34 := by
  by_cases h : b = 60 ∨ b = 62 ∨ b = 38
  · have e : jsEsc b = [b] := by rcases h with rfl | rfl | rfl <;> decide +kernel
    rw [e]
    obtain ⟨a1, a2⟩ := Json.firstChar_ascii hb r
    refine ⟨?_, by rcases h with rfl | rfl | rfl <;> simp⟩
    show Json.character (b :: r) = _
    unfold Json.character
    simp only
    rw [if_neg (by rcases h with rfl | rfl | rfl <;> decide), if_neg (by rcases h with rfl | rfl | rfl <;> decide), a1]
    simp only [a2]
    rfl
  · rw [esc_newer hb (by simp only [not_or] at h; exact h)]
    exact Json.character_esc true hb r

theorem char_read (c : Char) (r : List UInt8) :
    Json.character ((String.utf8EncodeChar c).flatMap jsEsc ++ r) = some (c, r) ∧
    ((String.utf8EncodeChar c).flatMap jsEsc ++ r).head? ≠ some 34 ∧ (String.utf8EncodeChar c).flatMap jsEsc ++ r ≠ [] := by
  by_cases hc : c.toNat < 0x80
  · have hb : (UInt8.ofNat c.toNat).toNat = c.toNat := by
      rw [UInt8.toNat_ofNat']; omega
    have he := Json.encode_ascii (b := UInt8.ofNat c.toNat) (by omega)
    rw [hb, Char.ofNat_toNat] at he
    rw [he]
    simp only [List.flatMap_cons, List.flatMap_nil, List.append_nil]
    obtain ⟨h1, h2⟩ := esc_low (b := UInt8.ofNat c.toNat) (by omega) r
    rw [hb, Char.ofNat_toNat] at h1
    refine ⟨h1, h2, fun h0 => ?_⟩
    rw [h0] at h1
    cases h1
  · have hh := Http.encode_high (c := c) (by omega)
    have he : (String.utf8EncodeChar c).flatMap jsEsc = String.utf8EncodeChar c := by
      have : ∀ l : List UInt8, (∀ b ∈ l, 0x80 ≤ b.toNat) → l.flatMap jsEsc = l := by
        intro l
        induction l with
        | nil => intro _; rfl
        | cons b l ih =>
          intro h
          rw [List.flatMap_cons, esc_high (by have := h b (by simp); omega), ih (fun x hx => h x (by simp [hx]))]
          rfl
      exact this _ hh
    rw [he]
    have hf := Json.firstChar_encode c r
    have hl := Json.encode_length c
    have hpos := c.utf8Size_pos
    cases hu : String.utf8EncodeChar c with
    | nil => rw [hu] at hl; simp at hl; omega
    | cons b l =>
      have hb := hh b (by rw [hu]; simp)
      rw [hu] at hf hl
      refine ⟨?_, ?_, by simp⟩
      · rw [List.cons_append] at hf ⊢
        rw [Json.high_head (by omega) hf, ← hl, ← List.cons_append, List.drop_left]
      · simp only [List.cons_append, List.head?_cons, ne_eq, Option.some.injEq]
        rintro rfl
        revert hb
        decide

theorem string_read (cs : List Char) (r : List UInt8) : ∃ k, Json.stringTail k ((utf8 cs).flatMap jsEsc ++ 34 :: r) = some (cs, r) := by
  induction cs with
  | nil => exact ⟨1, rfl⟩
  | cons c cs ih =>
    obtain ⟨k, hk⟩ := ih
    refine ⟨k + 1, ?_⟩
    obtain ⟨h1, h2, h3⟩ := char_read c ((utf8 cs).flatMap jsEsc ++ 34 :: r)
    have e : (utf8 (c :: cs)).flatMap jsEsc ++ 34 :: r =
        (String.utf8EncodeChar c).flatMap jsEsc ++ ((utf8 cs).flatMap jsEsc ++ 34 :: r) := by
      simp [utf8]
    rw [e]
    generalize (String.utf8EncodeChar c).flatMap jsEsc ++ ((utf8 cs).flatMap jsEsc ++ 34 :: r) = w at h1 h2 h3
    cases w with
    | nil => exact absurd rfl h3
    | cons b w =>
      simp only [Json.stringTail]
      rw [if_neg (by simpa using h2), h1]
      simp only
      rw [hk]

theorem chars_of {s : Str} (h : ∃ cs, s = utf8 cs) : utf8 (Json.chars s) = s := by
  obtain ⟨cs, rfl⟩ := h
  unfold utf8
  rw [Json.chars_utf8]

theorem text_reads {s : Str} (h : ∃ cs, s = utf8 cs) : ReadsAs (jsText s) (.str (Json.chars s)) := by
  intro r _
  obtain ⟨k, hk⟩ := string_read (Json.chars s) r
  rw [chars_of h] at hk
  refine ⟨k + 1, ?_⟩
  have e : jsText s ++ r = 34 :: (s.flatMap jsEsc ++ 34 :: r) := by simp [jsText]
  rw [e, Json.value, Json.skip_of (by decide)]
  simp only [if_true]
  rw [hk]

theorem out_reads (o : Json.Out) (h : Json.Numbers o) : ReadsAs (Json.layout true Json.compact 0 o) (Json.meaning o) :=
  fun r hr => Json.value_layout true Json.compact_ok o 0 h r hr

def numText (print : Int → Str) : Option Int → Str
  | some n => print n
  | none => bs "null"

def numJson (print : Int → Str) : Option Int → Json
  | some n => .num (print n)
  | none => .null

def flagText (b : Bool) : Str := if b then bs "true" else bs "false"

theorem num_reads {print : Int → Str} (hp : Prints print) (o : Option Int) : ReadsAs (numText print o) (numJson print o) := by
  cases o with
  | none =>
    have := out_reads .null trivial
    simp only [Json.layout, Json.meaning] at this
    exact this
  | some n =>
    have := out_reads (.num (print n)) (hp.number n)
    simp only [Json.layout, Json.meaning] at this
    exact this

theorem flag_reads (b : Bool) : ReadsAs (flagText b) (.bool b) := by
  have := out_reads (.bool b) trivial
  simp only [Json.layout, Json.meaning] at this
  exact this

/-- Members: name, text, value. -/
abbrev Triples := List (String × Str × Json)

theorem members_read (e : String × Str × Json) (l : Triples) (h : ∀ x ∈ e :: l, ReadsAs x.2.1 x.2.2) (r : List UInt8) :
    ∃ n, Json.members n (commas ((e :: l).map fun x => jsMember (x.1, x.2.1)) ++ 125 :: r) =
      some ((e :: l).map fun x => (x.1.toList, x.2.2), r) := by
  induction l generalizing e with
  | nil =>
    obtain ⟨n, hn⟩ := h e (by simp) (125 :: r) (Json.stop_of (by decide))
    obtain ⟨m, hm⟩ := string_read e.1.toList (58 :: (e.2.1 ++ 125 :: r))
    refine ⟨max n m + 1, ?_⟩
    have q : commas ([e].map fun x => jsMember (x.1, x.2.1)) ++ 125 :: r =
        34 :: ((utf8 e.1.toList).flatMap jsEsc ++ 34 :: 58 :: (e.2.1 ++ 125 :: r)) := by
      simp [commas, jsMember, jsText, Json.bs_eq, utf8]
    rw [q, Json.members, Json.skip_of (by decide)]
    simp only [if_true]
    rw [Json.stringTail_mono (Nat.le_max_right n m) hm]
    simp only
    rw [Json.skip_of (by decide)]
    simp only [if_true]
    rw [Json.value_mono (Nat.le_max_left n m) hn]
    simp only
    rw [Json.skip_of (by decide)]
    simp
  | cons e' l ih =>
    obtain ⟨p, hp⟩ := ih e' (fun x hx => h x (List.mem_cons_of_mem _ hx))
    generalize hw : commas ((e' :: l).map fun x => jsMember (x.1, x.2.1)) ++ 125 :: r = w at hp
    obtain ⟨n, hn⟩ := h e (by simp) (44 :: w) (Json.stop_of (by decide))
    obtain ⟨m, hm⟩ := string_read e.1.toList (58 :: (e.2.1 ++ 44 :: w))
    refine ⟨max n (max m p) + 1, ?_⟩
    have q : commas ((e :: e' :: l).map fun x => jsMember (x.1, x.2.1)) ++ 125 :: r =
        34 :: ((utf8 e.1.toList).flatMap jsEsc ++ 34 :: 58 :: (e.2.1 ++ 44 :: w)) := by
      rw [← hw]
      simp [commas, jsMember, jsText, Json.bs_eq, utf8]
    rw [q, Json.members, Json.skip_of (by decide)]
    simp only [if_true]
    rw [Json.stringTail_mono (by omega) hm]
    simp only
    rw [Json.skip_of (by decide)]
    simp only [if_true]
    rw [Json.value_mono (by omega) hn]
    simp only
    rw [Json.skip_of (by decide)]
    simp only
    rw [if_neg (by decide), if_pos (by trivial), Json.members_mono (by omega) hp]
    simp

theorem object_reads (l : Triples) (h : ∀ x ∈ l, ReadsAs x.2.1 x.2.2) (r : List UInt8) :
    ∃ n, Json.value n (jsObject (l.map fun x => (x.1, x.2.1)) ++ r) = some (.obj (l.map fun x => (x.1.toList, x.2.2)), r) := by
  cases l with
  | nil =>
    refine ⟨1, ?_⟩
    simp [jsObject, commas, Json.value, Json.skipWs, Json.isWs]
  | cons e l =>
    obtain ⟨n, hn⟩ := members_read e l h r
    refine ⟨n + 1, ?_⟩
    have q : jsObject ((e :: l).map fun x => (x.1, x.2.1)) ++ r =
        123 :: (commas ((e :: l).map fun x => jsMember (x.1, x.2.1)) ++ 125 :: r) := by
      simp [jsObject, Function.comp_def]
    obtain ⟨w, hw⟩ : ∃ w, commas ((e :: l).map fun x => jsMember (x.1, x.2.1)) ++ 125 :: r = 34 :: w := by
      cases l <;> simp [commas, jsMember, jsText]
    rw [q]
    rw [hw] at hn ⊢
    rw [Json.value, Json.skip_of (by decide)]
    simp only
    rw [if_neg (by decide), if_neg (by decide), if_pos (by trivial), Json.skip_of (by decide)]
    simp only
    rw [if_neg (by decide), hn]

/-! ## The object of the page -/

section
variable (print : Int → Str) (b : Browser) (f : Form)

def vesselTriples : Triples :=
  [("Name", jsText (f.text .vesselName), Json.str (Json.chars (f.text .vesselName))),
   ("Manufacturer", jsText (f.text .manufacturer), Json.str (Json.chars (f.text .manufacturer))),
   ("Model", jsText (f.text .model), Json.str (Json.chars (f.text .model))),
   ("Year", numText print (b.parseInt (f.text .year)), numJson print (b.parseInt (f.text .year))),
   ("Registration", jsText (f.text .registration), Json.str (Json.chars (f.text .registration))),
   ("Mmsi", numText print (b.parseInt (f.text .mmsi)), numJson print (b.parseInt (f.text .mmsi))),
   ("Callsign", jsText (f.text .callsign), Json.str (Json.chars (f.text .callsign))),
   ("Uuid", jsText (getUuid f), Json.str (Json.chars (getUuid f)))]

def serverTriples : Triples :=
  [("ListenOn", jsText (f.text .listenOn), Json.str (Json.chars (f.text .listenOn))),
   ("Port", numText print (b.parseInt (f.text .serverPort)), numJson print (b.parseInt (f.text .serverPort))),
   ("UseTls", flagText (f.checked .serverUseTls), Json.bool (f.checked .serverUseTls)),
   ("EnableWebsockets", flagText (f.checked .enableWebsockets), Json.bool (f.checked .enableWebsockets)),
   ("Certificate", jsText (f.text .certificate), Json.str (Json.chars (f.text .certificate)))]

def mqttTriples : Triples :=
  [("Enable", flagText (f.checked .mqttEnable), Json.bool (f.checked .mqttEnable)),
   ("UseTls", flagText (f.checked .mqttUseTls), Json.bool (f.checked .mqttUseTls)),
   ("Host", jsText (f.text .mqttHost), Json.str (Json.chars (f.text .mqttHost))),
   ("Port", numText print (b.parseInt (f.text .mqttPort)), numJson print (b.parseInt (f.text .mqttPort))),
   ("ClientId", jsText (f.text .clientId), Json.str (Json.chars (f.text .clientId))),
   ("Username", jsText (f.text .username), Json.str (Json.chars (f.text .username))),
   ("Password", jsText (f.text .password), Json.str (Json.chars (f.text .password)))]

def pairs (l : Triples) : List (String × Str) := l.map fun x => (x.1, x.2.1)

def parsed (l : Triples) : Json := .obj (l.map fun x => (x.1.toList, x.2.2))

theorem json_number (o : Option Int) : (Js.number o).json print = some (numText print o) := by cases o <;> rfl

theorem json_text (s : Str) : (Js.text s).json print = some (jsText s) := rfl
theorem json_flag (x : Bool) : (Js.flag x).json print = some (flagText x) := rfl
theorem json_undefined : Js.undefined.json print = none := rfl

theorem vessel_present : present print (jsVessel b f) = pairs (vesselTriples print b f) := by
  simp only [present, jsVessel, pairs, vesselTriples, json_number, json_text, json_flag, json_undefined, List.filterMap_cons, List.filterMap_nil,
    Option.map_some, Option.map_none, List.map_cons, List.map_nil]

theorem server_present : present print (jsServer b f) = pairs (serverTriples print b f) := by
  simp only [present, jsServer, pairs, serverTriples, json_number, json_text, json_flag, json_undefined, List.filterMap_cons, List.filterMap_nil,
    Option.map_some, Option.map_none, List.map_cons, List.map_nil]

theorem mqtt_present : present print (jsMqtt b f) = pairs (mqttTriples print b f) := by
  simp only [present, jsMqtt, pairs, mqttTriples, json_number, json_text, json_flag, json_undefined, List.filterMap_cons, List.filterMap_nil,
    Option.map_some, Option.map_none, List.map_cons, List.map_nil]

/-- The members of the object that is read. -/
def pageMembers : List (List Char × Json) :=
  [("Vessel".toList, parsed (vesselTriples print b f)), ("Server".toList, parsed (serverTriples print b f)),
   ("Mqtt".toList, parsed (mqttTriples print b f))]

theorem uuid_text {f : Form} (hf : Texts f) : ∃ cs, getUuid f = utf8 cs := by
  obtain ⟨a, ha⟩ := hf .uuid0
  obtain ⟨b, hb⟩ := hf .uuid1
  obtain ⟨c, hc⟩ := hf .uuid2
  obtain ⟨d, hd⟩ := hf .uuid3
  obtain ⟨e, he⟩ := hf .uuid4
  refine ⟨a ++ '-' :: (b ++ '-' :: (c ++ '-' :: (d ++ '-' :: e))), ?_⟩
  have h45 : String.utf8EncodeChar '-' = [45] := by decide +kernel
  simp [getUuid, ha, hb, hc, hd, he, utf8, h45]

variable {print b f}

theorem body_begins (hp : Prints print) (hf : Texts f) (rest : List UInt8) :
    Begins (jsBody print b f ++ rest) (.obj (pageMembers print b f)) := by
  have h1 : ∀ x ∈ vesselTriples print b f, ReadsAs x.2.1 x.2.2 := by
    intro x hx
    simp only [vesselTriples, List.mem_cons, List.not_mem_nil, or_false] at hx
    rcases hx with rfl | rfl | rfl | rfl | rfl | rfl | rfl | rfl
    all_goals first | exact text_reads (hf _) | exact num_reads hp _ | exact text_reads (uuid_text hf)
  have h2 : ∀ x ∈ serverTriples print b f, ReadsAs x.2.1 x.2.2 := by
    intro x hx
    simp only [serverTriples, List.mem_cons, List.not_mem_nil, or_false] at hx
    rcases hx with rfl | rfl | rfl | rfl | rfl
    all_goals first | exact text_reads (hf _) | exact num_reads hp _ | exact flag_reads _
  have h3 : ∀ x ∈ mqttTriples print b f, ReadsAs x.2.1 x.2.2 := by
    intro x hx
    simp only [mqttTriples, List.mem_cons, List.not_mem_nil, or_false] at hx
    rcases hx with rfl | rfl | rfl | rfl | rfl | rfl | rfl
    all_goals first | exact text_reads (hf _) | exact num_reads hp _ | exact flag_reads _
  obtain ⟨n, hn⟩ := object_reads [("Vessel", jsObject (pairs (vesselTriples print b f)), parsed (vesselTriples print b f)),
    ("Server", jsObject (pairs (serverTriples print b f)), parsed (serverTriples print b f)),
    ("Mqtt", jsObject (pairs (mqttTriples print b f)), parsed (mqttTriples print b f))] (by
      intro x hx
      simp only [List.mem_cons, List.not_mem_nil, or_false] at hx
      rcases hx with rfl | rfl | rfl
      · exact fun r _ => object_reads _ h1 r
      · exact fun r _ => object_reads _ h2 r
      · exact fun r _ => object_reads _ h3 r) rest
  refine ⟨n, rest, (Playback.agree_step n).1 _ _ ?_⟩
  unfold jsBody
  rw [vessel_present, server_present, mqtt_present]
  exact hn

end

/-! ## What is stored -/

theorem look_Vessel : lookup topKeys "Vessel".toList = some (.struct vesselKeys) := by decide +kernel
theorem look_Server : lookup topKeys "Server".toList = some (.struct serverKeys) := by decide +kernel
theorem look_Mqtt : lookup topKeys "Mqtt".toList = some (.struct mqttKeys) := by decide +kernel
theorem look_vesselName : lookup vesselKeys "Name".toList = some .vesselName := by decide +kernel
theorem look_manufacturer : lookup vesselKeys "Manufacturer".toList = some .manufacturer := by decide +kernel
theorem look_model : lookup vesselKeys "Model".toList = some .model := by decide +kernel
theorem look_year : lookup vesselKeys "Year".toList = some .year := by decide +kernel
theorem look_registration : lookup vesselKeys "Registration".toList = some .registration := by decide +kernel
theorem look_mmsi : lookup vesselKeys "Mmsi".toList = some .mmsi := by decide +kernel
theorem look_callsign : lookup vesselKeys "Callsign".toList = some .callsign := by decide +kernel
theorem look_uuid : lookup vesselKeys "Uuid".toList = some .uuid := by decide +kernel
theorem look_listenOn : lookup serverKeys "ListenOn".toList = some .listenOn := by decide +kernel
theorem look_serverPort : lookup serverKeys "Port".toList = some .serverPort := by decide +kernel
theorem look_serverUseTls : lookup serverKeys "UseTls".toList = some .serverUseTls := by decide +kernel
theorem look_enableWebsockets : lookup serverKeys "EnableWebsockets".toList = some .enableWebsockets := by decide +kernel
theorem look_certificate : lookup serverKeys "Certificate".toList = some .certificate := by decide +kernel
theorem look_mqttEnable : lookup mqttKeys "Enable".toList = some .mqttEnable := by decide +kernel
theorem look_mqttUseTls : lookup mqttKeys "UseTls".toList = some .mqttUseTls := by decide +kernel
theorem look_mqttHost : lookup mqttKeys "Host".toList = some .mqttHost := by decide +kernel
theorem look_mqttPort : lookup mqttKeys "Port".toList = some .mqttPort := by decide +kernel
theorem look_clientId : lookup mqttKeys "ClientId".toList = some .clientId := by decide +kernel
theorem look_username : lookup mqttKeys "Username".toList = some .username := by decide +kernel
theorem look_password : lookup mqttKeys "Password".toList = some .password := by decide +kernel


theorem digits_nat (m : Nat) : Digits (bs (toString m)) m := by
  obtain ⟨b, l, e, h1, h2, _⟩ := Json.dec_shape m
  refine ⟨?_, ?_⟩
  · rw [e]
    intro x hx
    rcases List.mem_cons.mp hx with rfl | hx
    · exact h1
    · exact h2 x hx
  · exact (Float.digitsVal_nat m).symm

theorem nat_head (m : Nat) : (bs (toString m)).head? ≠ some 45 := by
  obtain ⟨b, l, e, h1, h2, _⟩ := Json.dec_shape m
  rw [e]
  rintro h
  cases h
  revert h1
  decide

theorem neg_text (m : Nat) : bs (toString (Int.negSucc m)) = 45 :: bs (toString (m + 1)) := by
  show bs ("-" ++ toString (m + 1)) = _
  rw [Json.bs_append]
  have h1 : bs "-" = [45] := by decide +kernel
  rw [h1]; rfl

/-- The number that stands in the object. -/
theorem whole_literal {n : Int} (hn : n.natAbs < 2 ^ 63) (k : Int) : literal (.int k) (.num (bs (toString n))) = some (.int n) := by
  rw [literal_iff]
  cases n with
  | ofNat m => exact Means.pos k _ m (nat_head m) (digits_nat m) (by simp at hn; omega)
  | negSucc m =>
    rw [neg_text]
    exact Means.neg k _ (m + 1) (digits_nat (m + 1)) (by simp at hn; omega)

theorem big_literal {n : Int} (hn : 2 ^ 63 < n.natAbs) (k : Int) : literal (.int k) (.num (bs (toString n))) = none := by
  cases hl : literal (.int k) (.num (bs (toString n))) with
  | none => rfl
  | some x =>
    have hx := (literal_iff _ _ _).mp hl
    exfalso
    cases n with
    | ofNat m =>
      have e : bs (toString (Int.ofNat m)) = bs (toString m) := rfl
      rw [e] at hx
      generalize ht : bs (toString m) = t at hx
      cases hx with
      | pos _ _ j _ hd hj =>
        subst ht
        have := hd.2.trans (digits_nat m).2.symm
        simp at hn
        omega
      | neg _ r j hd hj => exact nat_head m (by rw [ht]; rfl)
    | negSucc m =>
      rw [neg_text] at hx
      generalize ht : bs (toString (m + 1)) = t at hx
      cases hx with
      | pos _ _ j h _ _ => exact h rfl
      | neg _ r j hd hj =>
        subst ht
        have := hd.2.trans (digits_nat (m + 1)).2.symm
        simp at hn
        omega

/-- The Numbers next to 2^63. -/
theorem double_edge {n : Int} (h : IsDouble n) :
    (n.natAbs < 2 ^ 63 → n.natAbs ≤ 2 ^ 63 - 2 ^ 10) ∧ (2 ^ 63 ≤ n.natAbs → n.natAbs = 2 ^ 63 ∨ 2 ^ 63 + 2 ^ 11 ≤ n.natAbs) := by
  obtain ⟨m, e, hm, rfl⟩ := h
  have ha : (m * 2 ^ e).natAbs = m.natAbs * 2 ^ e := by rw [Int.natAbs_mul, Int.natAbs_pow]; rfl
  rw [ha]
  generalize m.natAbs = k at hm
  constructor
  · intro h
    by_cases he : 10 ≤ e
    · obtain ⟨c, rfl⟩ := Nat.exists_eq_add_of_le he
      rw [Nat.pow_add] at h ⊢
      rw [show k * (2 ^ 10 * 2 ^ c) = 2 ^ 10 * (k * 2 ^ c) by ring] at h ⊢
      omega
    · have : 2 ^ e ≤ 2 ^ 9 := Nat.pow_le_pow_right (by decide) (by omega)
      have : k * 2 ^ e ≤ k * 2 ^ 9 := Nat.mul_le_mul_left k this
      omega
  · intro h
    by_cases he : 11 ≤ e
    · obtain ⟨c, rfl⟩ := Nat.exists_eq_add_of_le he
      rw [Nat.pow_add] at h ⊢
      rw [show k * (2 ^ 11 * 2 ^ c) = 2 ^ 11 * (k * 2 ^ c) by ring] at h ⊢
      omega
    · have : 2 ^ e ≤ 2 ^ 10 := Nat.pow_le_pow_right (by decide) (by omega)
      have : k * 2 ^ e ≤ k * 2 ^ 10 := Nat.mul_le_mul_left k this
      omega

theorem huge_literal {print : Int → Str} (hp : Prints print) {n : Int} (hd : IsDouble n) (h : 2 ^ 63 ≤ n.natAbs) (k : Int) :
    literal (.int k) (.num (print n)) = none := by
  rcases (double_edge hd).2 h with he | hn
  · have : n = 2 ^ 63 ∨ n = -2 ^ 63 := by omega
    rcases this with rfl | rfl
    · rw [hp.edge.1]; exact big_literal (by decide) k
    · rw [hp.edge.2]; exact big_literal (by decide) k
  by_cases hb : n.natAbs < 10 ^ 21
  · obtain ⟨j, hj, h⟩ := hp.whole n hb
    rw [hj]
    exact big_literal (by omega) k
  · cases hl : literal (.int k) (.num (print n)) with
    | none => rfl
    | some x =>
      have hx := (literal_iff _ _ _).mp hl
      have he := hp.huge n (by omega)
      generalize print n = t at hx he
      have nd : Json.isDigit 101 = false := by decide
      cases hx with
      | pos _ _ m _ hd _ => rw [hd.1 101 he] at nd; cases nd
      | neg _ r m hd _ =>
        rcases List.mem_cons.mp he with h | h
        · exact absurd h (by decide)
        · rw [hd.1 101 h] at nd; cases nd

/-- Whole numbers that are safe in JavaScript, or no number. -/
def Small (o : Option Int) : Prop := ∀ n, o = some n → n.natAbs ≤ 2 ^ 53

/-- The numbers below 2^63 that JavaScript has, or no number. -/
def Fits (o : Option Int) : Prop := ∀ n, o = some n → IsDouble n ∧ n.natAbs < 2 ^ 63

/-- The number is printed as another, which has 64 bits. -/
def Shown (print : Int → Str) (r : Int → Int) (o : Option Int) : Prop :=
  ∀ n, o = some n → print n = bs (toString (r n)) ∧ (r n).natAbs < 2 ^ 63

theorem small_shown {print : Int → Str} (hp : Prints print) {o : Option Int} (h : Small o) : Shown print id o :=
  fun n hn => ⟨hp.exact n (h n hn), by have := h n hn; simp only [id]; omega⟩

/-- A browser that shows its numbers in this way. -/
def rounded (r : Int → Int) (b : Browser) : Browser := { b with parseInt := fun s => (b.parseInt s).map r }

theorem small_num {print : Int → Str} {r : Int → Int} {o : Option Int} (h : Shown print r o) (k : Int) :
    literal (.int k) (numJson print o) = (o.map r).map Scalar.int := by
  cases o with
  | none => rfl
  | some n =>
    show literal (.int k) (.num (print n)) = some (.int (r n))
    rw [(h n rfl).1, whole_literal (h n rfl).2]

theorem small_error {print : Int → Str} {r : Int → Int} {o : Option Int} (h : Shown print r o) {s : Setting} (hs : zeroOf s = .int 0) :
    fieldError s (numJson print o) = false := by
  cases o with
  | none => rfl
  | some n =>
    show (literal (zeroOf s) (.num (print n))).isNone = false
    rw [hs, (h n rfl).1, whole_literal (h n rfl).2]; rfl

theorem huge_error {print : Int → Str} (hp : Prints print) {n : Int} (hd : IsDouble n) (h : 2 ^ 63 ≤ n.natAbs) {s : Setting} (hs : zeroOf s = .int 0) :
    fieldError s (numJson print (some n)) = true := by
  show (literal (zeroOf s) (.num (print n))).isNone = true
  rw [hs, huge_literal hp hd h]; rfl

theorem getD_map (g : Int → Scalar) (o : Option Int) : (Option.map (some ∘ g) o).getD none = Option.map g o := by cases o <;> rfl

theorem getD_map' (g : Int → Scalar) (r : Int → Int) (o : Option Int) :
    (Option.map ((some ∘ g) ∘ r) o).getD none = Option.map (g ∘ r) o := by cases o <;> rfl

theorem literal_str (a : Str) (t : List Char) : literal (.str a) (.str t) = some (.str (utf8 t)) := rfl
theorem literal_bool (a x : Bool) : literal (.bool a) (.bool x) = some (.bool x) := rfl

theorem doc_ext {a b : Doc} (h : a.val = b.val) (h' : a.interfaces = b.interfaces) : a = b := by
  cases a; cases b; simp only at h h'; rw [h, h']

theorem page_stored {print : Int → Str} {r : Int → Int} {b : Browser} {f : Form} (hf : Texts f)
    (hn : ∀ s ∈ [Setting.year, .mmsi, .serverPort, .mqttPort], Shown print r (b.parseInt (f.text s))) :
    (pageMembers print b f).foldl store ⟨fun _ => none, []⟩ = submit (rounded r b) f := by
  have n1 := small_num (hn .year (by simp)) 0
  have n2 := small_num (hn .mmsi (by simp)) 0
  have n3 := small_num (hn .serverPort (by simp)) 0
  have n4 := small_num (hn .mqttPort (by simp)) 0
  have t := fun s => chars_of (hf s)
  have u := chars_of (uuid_text hf)
  simp only [pageMembers, List.foldl_cons, List.foldl_nil, store, look_Vessel, look_Server, look_Mqtt, parsed, vesselTriples, serverTriples,
    mqttTriples, List.map_cons, List.map_nil, storeMember, look_vesselName, look_manufacturer, look_model, look_year, look_registration, look_mmsi, look_callsign, look_uuid, look_listenOn, look_serverPort, look_serverUseTls, look_enableWebsockets, look_certificate, look_mqttEnable, look_mqttUseTls, look_mqttHost, look_mqttPort, look_clientId, look_username, look_password]
  refine doc_ext (funext fun s => ?_) rfl
  cases s <;> simp [storeField, submit, rounded, step, literal_str, literal_bool, zeroOf, control, n1, n2, n3, n4, t, u, getD_map, getD_map', Function.comp_assoc]

theorem page_ok {print : Int → Str} {r : Int → Int} {b : Browser} {f : Form}
    (hn : ∀ s ∈ [Setting.year, .mmsi, .serverPort, .mqttPort], Shown print r (b.parseInt (f.text s))) : Sound (pageMembers print b f) := by
  rw [← stores_error]
  have n1 := small_error (hn .year (by simp)) (s := .year) rfl
  have n2 := small_error (hn .mmsi (by simp)) (s := .mmsi) rfl
  have n3 := small_error (hn .serverPort (by simp)) (s := .serverPort) rfl
  have n4 := small_error (hn .mqttPort (by simp)) (s := .mqttPort) rfl
  simp only [pageMembers, List.any_cons, List.any_nil, List.map_cons, List.map_nil, Bool.or_false, storeError, look_Vessel, look_Server, look_Mqtt, parsed, vesselTriples, serverTriples,
    mqttTriples, memberError, look_vesselName, look_manufacturer, look_model, look_year, look_registration, look_mmsi, look_callsign, look_uuid, look_listenOn, look_serverPort, look_serverUseTls, look_enableWebsockets, look_certificate, look_mqttEnable, look_mqttUseTls, look_mqttHost, look_mqttPort, look_clientId, look_username, look_password, n1, n2, n3, n4]
  rfl

theorem numJson_depth (print : Int → Str) (o : Option Int) : Playback.depth (numJson print o) = 0 := by cases o <;> simp [numJson, Playback.depth]

theorem page_depth (print : Int → Str) (b : Browser) (f : Form) : Playback.depth (.obj (pageMembers print b f)) = 2 := by
  simp [pageMembers, parsed, vesselTriples, serverTriples, mqttTriples, Playback.depth, Playback.depthO, numJson_depth]

theorem rounded_id (b : Browser) : rounded id b = b := by
  unfold rounded
  simp

theorem page_posted {limit : Option Nat} (hl : ∀ n, limit = some n → 2 ≤ n) {print : Int → Str} (hp : Prints print) {r : Int → Int}
    (b : Browser) {f : Form} (hf : Texts f)
    (hn : ∀ s ∈ [Setting.year, .mmsi, .serverPort, .mqttPort], Shown print r (b.parseInt (f.text s))) (rest : List UInt8) :
    posted limit (jsBody print b f ++ rest) = some (submit (rounded r b) f) := by
  rw [posted_of (body_begins hp hf rest) (fun n hn => by rw [page_depth]; exact hl n hn) (.inr ⟨_, rfl⟩) (page_ok hn)]
  exact congrArg some (page_stored hf hn)

/-- How numbers below 2^63 are printed. -/
theorem printed_as {print : Int → Str} (hp : Prints print) : ∃ r : Int → Int, ∀ n : Int, n.natAbs < 10 ^ 21 →
    print n = bs (toString (r n)) ∧ (r n - n).natAbs * 2 ^ 53 ≤ n.natAbs ∧ (n.natAbs ≤ 2 ^ 53 → r n = n) := by
  classical
  have hr : ∀ n : Int, ∃ k : Int, n.natAbs < 10 ^ 21 →
      print n = bs (toString k) ∧ (k - n).natAbs * 2 ^ 53 ≤ n.natAbs ∧ (n.natAbs ≤ 2 ^ 53 → k = n) := by
    intro n
    by_cases hs : n.natAbs ≤ 2 ^ 53
    · exact ⟨n, fun _ => ⟨hp.exact n hs, by simp, fun _ => rfl⟩⟩
    · by_cases hb : n.natAbs < 10 ^ 21
      · obtain ⟨k, h1, h2⟩ := hp.whole n hb
        exact ⟨k, fun _ => ⟨h1, h2, fun h => absurd h hs⟩⟩
      · exact ⟨n, fun h => absurd h hb⟩
  choose r hr using hr
  exact ⟨r, hr⟩

/-! ## Theorems -/

/-- **C133** (the page, partial): whatever texts are in the form, if the numbers entered (those that are numbers) are at most 2^53, the
text that the page posts is accepted and says what the form says, whatever may follow it: every theorem of C114 about the form holds
of the bytes.  No text entered can add a member or change another setting.  Missing: `C133_huge_false`. -/
theorem C133_page_partial {limit : Option Nat} (hl : ∀ n, limit = some n → 2 ≤ n) {print : Int → Str} (hp : Prints print) (b : Browser)
    {f : Form} (hf : Texts f) (hn : ∀ s ∈ [Setting.year, .mmsi, .serverPort, .mqttPort], Small (b.parseInt (f.text s)))
    (rest : List UInt8) {c : Conf} (hc : WellTyped c) :
    let body := jsBody print b f ++ rest
    let c' := (admin c (posted limit body)).1
    posted limit body = some (submit b f) ∧
    (∃ saved, (admin c (posted limit body)).2 = some saved) ∧
    (∀ s, ¬ Unset c s → c'.val s = c.val s) ∧
    (∀ s ∈ [Setting.vesselName, .manufacturer, .model, .callsign, .registration, .listenOn, .mqttHost, .clientId, .username,
        .password, .certificate], Unset c s → c'.val s = .str (f.text s)) ∧
    (∀ s ∈ [Setting.year, .mmsi, .serverPort, .mqttPort], Unset c s → c'.val s = .int ((b.parseInt (f.text s)).getD 0)) ∧
    (∀ s ∈ [Setting.enableWebsockets, .serverUseTls, .mqttEnable, .mqttUseTls], Unset c s → c'.val s = .bool (f.checked s)) ∧
    (Unset c .uuid → c'.val .uuid = .str (f.text .uuid0 ++ 45 :: (f.text .uuid1 ++ 45 :: (f.text .uuid2 ++ 45 ::
      (f.text .uuid3 ++ 45 :: f.text .uuid4))))) ∧
    (∀ s ∈ [Setting.logLevel, .mapFile, .assetPath, .publicKeyFile, .privateKeyFile, .channel], c'.val s = c.val s) ∧
    (∀ k, mapGet c'.interfaces k = mapGet c.interfaces k) := by
  have he : posted limit (jsBody print b f ++ rest) = some (submit b f) := by
    have := page_posted hl hp b hf (fun s hs => small_shown hp (hn s hs)) rest
    rwa [rounded_id] at this
  intro body c'
  have hc' : c' = (admin c (some (submit b f))).1 := by show (admin c (posted limit (jsBody print b f ++ rest))).1 = _; rw [he]
  obtain ⟨r0, r1, r2, r3, r4, r5, r6, r7⟩ := C114_rule (b := b) hc f
  rw [hc']
  refine ⟨he, ?_, r1, r2, r3, r4, r5, fun s hs => r6 s (List.mem_append_left _ hs), r7⟩
  show ∃ saved, (admin c (posted limit (jsBody print b f ++ rest))).2 = some saved
  rw [he]
  exact r0

/-- **C133** (the page, larger numbers, partial): if the numbers entered are below 2^63, the
same holds, but a number above 2^53 may be stored as one next to it: by 2^-53 of it at most.  Missing: `C133_huge_false`. -/
theorem C133_rounded_partial {limit : Option Nat} (hl : ∀ n, limit = some n → 2 ≤ n) {print : Int → Str} (hp : Prints print) (b : Browser)
    {f : Form} (hf : Texts f) (hn : ∀ s ∈ [Setting.year, .mmsi, .serverPort, .mqttPort], Fits (b.parseInt (f.text s)))
    (rest : List UInt8) {c : Conf} (hc : WellTyped c) :
    let body := jsBody print b f ++ rest
    let c' := (admin c (posted limit body)).1
    (∃ saved, (admin c (posted limit body)).2 = some saved) ∧
    (∀ s, ¬ Unset c s → c'.val s = c.val s) ∧
    (∀ s ∈ [Setting.vesselName, .manufacturer, .model, .callsign, .registration, .listenOn, .mqttHost, .clientId, .username,
        .password, .certificate], Unset c s → c'.val s = .str (f.text s)) ∧
    (∀ s ∈ [Setting.year, .mmsi, .serverPort, .mqttPort], Unset c s →
      (b.parseInt (f.text s) = none → c'.val s = .int 0) ∧
      ∀ n, b.parseInt (f.text s) = some n → ∃ k, c'.val s = .int k ∧ (k - n).natAbs * 2 ^ 53 ≤ n.natAbs ∧ (n.natAbs ≤ 2 ^ 53 → k = n)) ∧
    (∀ s ∈ [Setting.enableWebsockets, .serverUseTls, .mqttEnable, .mqttUseTls], Unset c s → c'.val s = .bool (f.checked s)) ∧
    (Unset c .uuid → c'.val .uuid = .str (f.text .uuid0 ++ 45 :: (f.text .uuid1 ++ 45 :: (f.text .uuid2 ++ 45 ::
      (f.text .uuid3 ++ 45 :: f.text .uuid4))))) ∧
    (∀ s ∈ [Setting.logLevel, .mapFile, .assetPath, .publicKeyFile, .privateKeyFile, .channel], c'.val s = c.val s) ∧
    (∀ k, mapGet c'.interfaces k = mapGet c.interfaces k) := by
  obtain ⟨r, hr⟩ := printed_as hp
  have he : posted limit (jsBody print b f ++ rest) = some (submit (rounded r b) f) := by
    refine page_posted hl hp b hf (fun s hs n hsn => ?_) rest
    have h1 := (double_edge (hn s hs n hsn).1).1 (hn s hs n hsn).2
    obtain ⟨h2, h3, _⟩ := hr n (by omega)
    exact ⟨h2, by omega⟩
  intro body c'
  have hc' : c' = (admin c (some (submit (rounded r b) f))).1 := by
    show (admin c (posted limit (jsBody print b f ++ rest))).1 = _; rw [he]
  obtain ⟨r0, r1, r2, r3, r4, r5, r6, r7⟩ := C114_rule (b := rounded r b) hc f
  rw [hc']
  refine ⟨?_, r1, r2, ?_, r4, r5, fun s hs => r6 s (List.mem_append_left _ hs), r7⟩
  · show ∃ saved, (admin c (posted limit (jsBody print b f ++ rest))).2 = some saved
    rw [he]
    exact r0
  · intro s hs hu
    refine ⟨fun h => ?_, fun n h => ⟨r n, ?_, ?_⟩⟩
    · rw [r3 s hs hu]; simp [rounded, h]
    · rw [r3 s hs hu]; simp [rounded, h]
    · have := (hn s hs n h).2
      exact (hr n (by omega)).2

theorem any_of_mem {α : Type} {p : α → Bool} {l : List α} {a : α} (h : a ∈ l) (hp : p a = true) : l.any p = true :=
  List.any_eq_true.mpr ⟨a, h, hp⟩

/-- **C133** is false (large numbers): if the number entered for the year, the MMSI or a port is 2^63 or more, nothing that
was entered in the form is taken over and nothing is saved, whatever the rest of the form says; the page does not tell
(site.js:165-170 ignores the reply). -/
theorem C133_huge_false (limit : Option Nat) {print : Int → Str} (hp : Prints print) (b : Browser) {f : Form} (hf : Texts f)
    {s : Setting} (hs : s ∈ [Setting.year, .mmsi, .serverPort, .mqttPort]) {n : Int} (hn : b.parseInt (f.text s) = some n)
    (hw : IsDouble n) (h : 2 ^ 63 ≤ n.natAbs) (c : Conf) : admin c (posted limit (jsBody print b f)) = (c, none) := by
  cases hd : posted limit (jsBody print b f) with
  | none => rfl
  | some d =>
    obtain ⟨v, hb, _, _, hv⟩ := posted_some hd
    have hb' := body_begins (b := b) hp hf []
    rw [List.append_nil] at hb'
    rw [begins_unique hb hb'] at hv
    exfalso
    have he := (stores_error _).mpr hv
    revert he
    simp only [imp_false, Bool.not_eq_false, inside]
    simp only [List.mem_cons, List.not_mem_nil, or_false] at hs
    rcases hs with rfl | rfl | rfl | rfl
    · refine any_of_mem (a := ("Vessel".toList, parsed (vesselTriples print b f))) (by simp [pageMembers]) ?_
      simp only [storeError, look_Vessel, parsed]
      refine any_of_mem (a := ("Year".toList, numJson print (b.parseInt (f.text .year)))) (by simp [vesselTriples]) ?_
      simp only [memberError, look_year]
      rw [hn]
      exact huge_error hp hw h rfl
    · refine any_of_mem (a := ("Vessel".toList, parsed (vesselTriples print b f))) (by simp [pageMembers]) ?_
      simp only [storeError, look_Vessel, parsed]
      refine any_of_mem (a := ("Mmsi".toList, numJson print (b.parseInt (f.text .mmsi)))) (by simp [vesselTriples]) ?_
      simp only [memberError, look_mmsi]
      rw [hn]
      exact huge_error hp hw h rfl
    · refine any_of_mem (a := ("Server".toList, parsed (serverTriples print b f))) (by simp [pageMembers]) ?_
      simp only [storeError, look_Server, parsed]
      refine any_of_mem (a := ("Port".toList, numJson print (b.parseInt (f.text .serverPort)))) (by simp [serverTriples]) ?_
      simp only [memberError, look_serverPort]
      rw [hn]
      exact huge_error hp hw h rfl
    · refine any_of_mem (a := ("Mqtt".toList, parsed (mqttTriples print b f))) (by simp [pageMembers]) ?_
      simp only [storeError, look_Mqtt, parsed]
      refine any_of_mem (a := ("Port".toList, numJson print (b.parseInt (f.text .mqttPort)))) (by simp [mqttTriples]) ?_
      simp only [memberError, look_mqttPort]
      rw [hn]
      exact huge_error hp hw h rfl

/-- **C133** (the page, exact): a submission is refused exactly when a number of 2^63 or more was entered. -/
theorem C133_refused_iff {limit : Option Nat} (hl : ∀ n, limit = some n → 2 ≤ n) {print : Int → Str} (hp : Prints print) (b : Browser)
    (hd : ∀ t n, b.parseInt t = some n → IsDouble n) {f : Form} (hf : Texts f) {c : Conf} (hc : WellTyped c) :
    (admin c (posted limit (jsBody print b f))).2 = none ↔
      ∃ s ∈ [Setting.year, .mmsi, .serverPort, .mqttPort], ∃ n, b.parseInt (f.text s) = some n ∧ 2 ^ 63 ≤ n.natAbs := by
  constructor
  · intro h
    by_contra hc'
    push Not at hc'
    have := (C133_rounded_partial hl hp b hf (fun s hs n hn => ⟨hd _ n hn, hc' s hs n hn⟩) [] hc).1
    simp only [List.append_nil, h] at this
    obtain ⟨_, h⟩ := this
    cases h
  · rintro ⟨s, hs, n, hn, h⟩
    rw [C133_huge_false limit hp b hf hs hn (hd _ n hn) h c]

/-! ## Examples -/

/-- A printer as in ECMAScript, but for the digits of large numbers. -/
def examplePrint (n : Int) : Str :=
  if n = 2 ^ 63 then bs (toString (9223372036854776000 : Int))
  else if n = -2 ^ 63 then bs (toString (-9223372036854776000 : Int))
  else if n.natAbs < 10 ^ 21 then bs (toString n) else bs "1e+21"

theorem example_prints : Prints examplePrint := by
  refine ⟨fun n hn => ?_, fun n hn => ?_, ⟨if_pos rfl, (if_neg (by decide)).trans (if_pos rfl)⟩, fun n hn => ?_, fun n => ?_⟩
  · unfold examplePrint; rw [if_neg (by omega), if_neg (by omega), if_pos (by omega)]
  · unfold examplePrint
    split
    · rename_i h; exact ⟨_, rfl, by subst h; decide⟩
    · split
      · rename_i h; exact ⟨_, rfl, by subst h; decide⟩
      · exact ⟨n, rfl, by simp⟩
  · unfold examplePrint; rw [if_neg (by omega), if_neg (by omega), if_neg (by omega)]; decide +kernel
  · unfold examplePrint
    split
    · exact Json.isNumber_int _
    · split
      · exact Json.isNumber_int _
      · split
        · exact Json.isNumber_int n
        · unfold Json.IsNumber; decide +kernel

/-- A name with quotation marks, a backslash, a line break, a control character and a letter that is not ASCII. -/
def exampleName : List Char := [Char.ofNat 34, '}', Char.ofNat 92, Char.ofNat 10, Char.ofNat 1, Char.ofNat 233]

def exampleForm : Form where
  text s := match s with
    | .vesselName => utf8 exampleName
    | .year => bs "1987"
    | _ => []
  checked s := s == .mqttEnable

theorem example_texts : Texts exampleForm := by
  intro s
  cases s with
  | vesselName => exact ⟨_, rfl⟩
  | year => exact ⟨"1987".toList, Json.bs_eq _⟩
  | _ => exact ⟨[], rfl⟩

def exampleBrowser : Browser := ⟨id, fun s => if s = bs "1987" then some 1987 else none⟩

example : jsText (exampleForm.text .vesselName) =
    [34, 92, 34, 125, 92, 92, 92, 110, 92, 117, 48, 48, 48, 49, 195, 169, 34] := by decide +kernel

example : ((admin ⟨zeroOf, []⟩ (posted (some 10000) (jsBody examplePrint exampleBrowser exampleForm))).1).val .vesselName =
    .str (utf8 exampleName) ∧
    ((admin ⟨zeroOf, []⟩ (posted (some 10000) (jsBody examplePrint exampleBrowser exampleForm))).1).val .year = .int 1987 := by
  have hc : WellTyped ⟨zeroOf, []⟩ := by intro s; cases s <;> rfl
  have := C133_page_partial (limit := some 10000) (by rintro n ⟨⟩; decide) example_prints exampleBrowser example_texts (by
    intro s hs n hn
    simp only [exampleBrowser] at hn
    split at hn
    · cases hn; decide
    · cases hn) [] hc
  simp only [List.append_nil] at this
  obtain ⟨_, _, _, h1, h2, _⟩ := this
  refine ⟨h1 _ (by simp) (by unfold Unset; decide +kernel), ?_⟩
  rw [h2 .year (by simp) (by unfold Unset; decide +kernel)]
  have : exampleBrowser.parseInt (exampleForm.text .year) = some 1987 := by decide +kernel
  rw [this]; rfl

/-- An MMSI with a digit too many, twelve times over. -/
def hugeForm : Form where
  text s := match s with
    | .vesselName => bs "Argo"
    | .mmsi => bs "1000000000000000000000"
    | _ => []
  checked _ := true

def hugeBrowser : Browser := ⟨id, fun s => if s = bs "1000000000000000000000" then some (10 ^ 21) else none⟩

example : admin defaultConfig (posted (some 10000) (jsBody examplePrint hugeBrowser hugeForm)) = (defaultConfig, none) := by
  refine C133_huge_false (some 10000) example_prints hugeBrowser (s := .mmsi) (n := 10 ^ 21) ?_ (by simp) (by decide +kernel)
    ⟨5 ^ 21, 21, by decide, by decide⟩ (by decide +kernel) _
  intro s
  cases s with
  | vesselName => exact ⟨"Argo".toList, Json.bs_eq _⟩
  | mmsi => exact ⟨"1000000000000000000000".toList, Json.bs_eq _⟩
  | _ => exact ⟨[], rfl⟩

/-- The hypothesis of `C133_refused_iff` on the browser, and both sides of it. -/
example : (∀ t n, hugeBrowser.parseInt t = some n → IsDouble n) ∧
    (∃ s ∈ [Setting.year, .mmsi, .serverPort, .mqttPort], ∃ n, hugeBrowser.parseInt (hugeForm.text s) = some n ∧ 2 ^ 63 ≤ n.natAbs) ∧
    ¬ (∃ s ∈ [Setting.year, .mmsi, .serverPort, .mqttPort], ∃ n, exampleBrowser.parseInt (exampleForm.text s) = some n ∧
      2 ^ 63 ≤ n.natAbs) := by
  refine ⟨fun t n h => ?_, ⟨.mmsi, by simp, 10 ^ 21, by decide +kernel, by decide⟩, ?_⟩
  · simp only [hugeBrowser] at h
    split at h
    · cases h; exact ⟨5 ^ 21, 21, by decide, by decide⟩
    · cases h
  · rintro ⟨s, _, n, h, h'⟩
    simp only [exampleBrowser] at h
    split at h
    · cases h; exact absurd h' (by decide)
    · cases h

/-- JavaScript prints 2^60 with seventeen digits and zeros. -/
def roundPrint (n : Int) : Str := if n = 2 ^ 60 then bs (toString (1152921504606847000 : Int)) else examplePrint n

theorem round_prints : Prints roundPrint := by
  refine ⟨fun n hn => ?_, fun n hn => ?_, ⟨?_, ?_⟩, fun n hn => ?_, fun n => ?_⟩
  · unfold roundPrint; rw [if_neg (by omega)]; exact example_prints.exact n hn
  · unfold roundPrint
    split
    · rename_i h
      exact ⟨1152921504606847000, rfl, by subst h; decide⟩
    · exact example_prints.whole n hn
  · unfold roundPrint; rw [if_neg (by decide)]; exact example_prints.edge.1
  · unfold roundPrint; rw [if_neg (by decide)]; exact example_prints.edge.2
  · unfold roundPrint; rw [if_neg (by omega)]; exact example_prints.huge n hn
  · unfold roundPrint
    split
    · exact Json.isNumber_int _
    · exact example_prints.number n

def roundForm : Form where
  text s := match s with
    | .mmsi => bs "1152921504606846976"
    | _ => []
  checked _ := false

def roundBrowser : Browser := ⟨id, fun s => if s = bs "1152921504606846976" then some (2 ^ 60) else none⟩

theorem round_texts : Texts roundForm := by
  intro s
  cases s with
  | mmsi => exact ⟨"1152921504606846976".toList, Json.bs_eq _⟩
  | _ => exact ⟨[], rfl⟩

/-- The hypotheses of `C133_rounded_partial` are met by a number that is not stored as it was entered. -/
example : (∀ s ∈ [Setting.year, .mmsi, .serverPort, .mqttPort], Fits (roundBrowser.parseInt (roundForm.text s))) ∧
    posted (some 10000) (jsBody roundPrint roundBrowser roundForm ++ []) =
      some (submit (rounded (fun n => if n = 2 ^ 60 then 1152921504606847000 else n) roundBrowser) roundForm) := by
  have hn : ∀ s n, roundBrowser.parseInt (roundForm.text s) = some n → n = 2 ^ 60 := by
    intro s n h
    simp only [roundBrowser] at h
    split at h
    · exact (Option.some.inj h).symm
    · cases h
  refine ⟨fun s _ n h => by rw [hn s n h]; exact ⟨⟨1, 60, by decide, by decide⟩, by decide⟩, ?_⟩
  refine page_posted (by rintro n ⟨⟩; decide) round_prints roundBrowser round_texts (fun s _ n h => ?_) []
  rw [hn s n h]
  exact ⟨rfl, by decide⟩

/-- A body with members in other cases, one of them twice, an unknown one, an interface, and something after the object. -/
def exampleBody : List UInt8 := bs "{\"vessel\":{\"NAME\":\"A\",\"Name\":\"B\",\"x\":1},\"interfaces\":{\"gps\":{\"path\":\"/dev/a\",\"speed\":9}}} ]"

def sight (d : Option Doc) : Option (Option Scalar × Option Scalar × List (Str × Interface)) :=
  d.map fun d => (d.val .vesselName, d.val .model, d.interfaces)

theorem example_read : sight (posted (some 10000) exampleBody) = some (some (.str (bs "B")), none, [(bs "gps", ⟨bs "/dev/a", [], 9⟩)]) := by
  decide +kernel

/-- The hypotheses of the second part of `C133_post` are met by it, and by no text with a year written as text. -/
example : ∃ ms, Followed (some 10000) exampleBody ms := by
  cases hp : posted (some 10000) exampleBody with
  | none => have := example_read; rw [hp] at this; cases this
  | some d =>
    obtain ⟨v, h1, h2, h3, h4⟩ := posted_some hp
    exact ⟨_, v, h1, h2, h3, h4, rfl⟩

def wrongBody : List UInt8 := bs "{\"Vessel\":{\"Name\":\"A\",\"Year\":\"1987\"}}"

example : ∀ ms, ¬ Followed (some 10000) wrongBody ms := by
  rintro ms ⟨v, h1, h2, h3, h4, _⟩
  have := posted_of h1 h2 h3 h4
  have e : (posted (some 10000) wrongBody).isNone = true := by decide +kernel
  rw [this] at e
  cases e

end Argo.Config

