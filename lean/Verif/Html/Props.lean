import Verif.Html.Apps
import Verif.Nmea2k.Table

set_option autoImplicit false

/-!
# What the pages show (C119, C120)
-/

namespace Argo.Html

open Argo.Signalk (Str bs)
open Argo.Config (Setting Scalar Conf)
open Argo.Packages (NpmObject)

/-! ## Settings -/

/-- The inputs of the settings that are texts or numbers. -/
def fields : List (String × Setting) :=
  [("vesselName", .vesselName), ("vesselManufacturer", .manufacturer), ("vesselModel", .model), ("vesselYear", .year),
   ("mmsi", .mmsi), ("callsign", .callsign), ("registration", .registration), ("uuid_0", .uuid0), ("uuid_1", .uuid1),
   ("uuid_2", .uuid2), ("uuid_3", .uuid3), ("uuid_4", .uuid4), ("listenOn", .listenOn), ("port", .serverPort),
   ("mqttHost", .mqttHost), ("mqttPort", .mqttPort), ("mqttClientId", .clientId), ("mqttUsername", .username),
   ("mqttPassword", .password)]

/-- The checkboxes. -/
def boxes : List (String × Setting) :=
  [("enableWebsockets", .enableWebsockets), ("useTls", .serverUseTls), ("mqttEnable", .mqttEnable), ("mqttUseTls", .mqttUseTls)]

theorem withId_eq (ts : List (Tok UInt8)) (i : String) : withId ts i = ts.filter (fun t => idOf t == some (bs i)) := by
  unfold withId
  congr 1
  funext t
  cases t <;> simp [idOf]

theorem filter_unique {ts : List (Tok UInt8)} (h : (ts.filterMap idOf).Nodup) {t : Tok UInt8} (ht : t ∈ ts) {x : Str}
    (hx : idOf t = some x) : ts.filter (fun t => idOf t == some x) = [t] := by
  induction ts with
  | nil => cases ht
  | cons a ts ih =>
    rw [List.filterMap_cons] at h
    rcases List.mem_cons.mp ht with rfl | ht
    · rw [hx] at h
      simp only [List.nodup_cons] at h
      rw [List.filter_cons, if_pos (by simp [hx])]
      congr 1
      rw [List.filter_eq_nil_iff]
      intro b hb hc
      exact h.1 (List.mem_filterMap.mpr ⟨b, hb, by simpa using hc⟩)
    · cases ha : idOf a with
      | none =>
        rw [ha] at h
        rw [List.filter_cons, if_neg (by simp [ha])]
        exact ih h ht
      | some y =>
        rw [ha] at h
        simp only [List.nodup_cons] at h
        have hne : y ≠ x := fun e => h.1 (e ▸ List.mem_filterMap.mpr ⟨t, ht, hx⟩)
        rw [List.filter_cons, if_neg (by simp [ha, hne])]
        exact ih h.2 ht

theorem box_facts : ∀ i ∈ boxes.map Prod.fst, ∀ on : Bool, idOf (box bs i on) = some (bs i) ∧
    ∃ as, box bs i on = .start (bs "input") as false ∧ attr as "type" = some (bs "checkbox") ∧
      attr as "checked" = if on then some [] else none := by
  intro i hi on
  refine ⟨?_, _, rfl, ?_, ?_⟩ <;> revert i on <;> decide +kernel

set_option linter.unusedSimpArgs false in
/-- **C119** (each setting): the page has exactly one element with the id of a setting's input; it is an `input` whose value is
the setting, or a checkbox that is checked exactly if the setting is on. -/
theorem C119_setting (c : Conf) (hc : Config.WellTyped c) : ∃ ts, tokens (indexPage c) = some ts ∧
    (∀ e ∈ fields, ∃ as, withId ts e.1 = [.start (bs "input") as false] ∧ attr as "value" = some (shown (c.val e.2))) ∧
    (∀ e ∈ boxes, ∃ as, withId ts e.1 = [.start (bs "input") as false] ∧ attr as "type" = some (bs "checkbox") ∧
      attr as "checked" = if c.val e.2 = .bool true then some [] else none) := by
  obtain ⟨_, ids, hn, h⟩ := C119_index
  obtain ⟨ts, ht, _, hi, hf⟩ := h c hc
  refine ⟨ts, ht, ?_, ?_⟩
  · have key : ∀ (t : Tok UInt8) (i : String) as, t = .start (bs "input") as false → t ∈ inputs c → idOf t = some (bs i) →
        withId ts i = [.start (bs "input") as false] := by
      rintro t i as rfl hm hid
      rw [withId_eq]
      exact filter_unique (hi ▸ hn) (List.mem_filter.mp (hf ▸ hm)).1 hid
    have a1 : (bs "class" == bs "id") = false := by decide +kernel
    have a2 : (bs "class" == bs "value") = false := by decide +kernel
    have a3 : (bs "id" == bs "value") = false := by decide +kernel
    have a4 : (bs "placeholder" == bs "value") = false := by decide +kernel
    have a5 : (bs "type" == bs "value") = false := by decide +kernel
    have find : ∀ e ∈ fields, ∃ as, Tok.start (bs "input") as false ∈ inputs c ∧ attr as "id" = some (bs e.1) ∧
        attr as "value" = some (shown (c.val e.2)) := by
      intro e he
      simp only [fields, List.mem_cons, List.not_mem_nil, or_false] at he
      rcases he with rfl | rfl | rfl | rfl | rfl | rfl | rfl | rfl | rfl | rfl | rfl | rfl | rfl | rfl | rfl | rfl | rfl | rfl | rfl
      · exact ⟨[(bs "class", bs "form-control"), (bs "id", bs "vesselName"), (bs "placeholder", bs "Name"), (bs "value", shown (c.val .vesselName))],
          List.mem_of_getElem? (i := 0) rfl, by simp [attr, a1, -beq_eq_false_iff_ne],
          by simp [attr, a2, a3, a4, a5, -beq_eq_false_iff_ne]⟩
      · exact ⟨[(bs "class", bs "form-control"), (bs "id", bs "vesselManufacturer"), (bs "placeholder", bs "Manufacturer"), (bs "value", shown (c.val .manufacturer))],
          List.mem_of_getElem? (i := 1) rfl, by simp [attr, a1, -beq_eq_false_iff_ne],
          by simp [attr, a2, a3, a4, a5, -beq_eq_false_iff_ne]⟩
      · exact ⟨[(bs "class", bs "form-control"), (bs "id", bs "vesselModel"), (bs "placeholder", bs "Model"), (bs "value", shown (c.val .model))],
          List.mem_of_getElem? (i := 2) rfl, by simp [attr, a1, -beq_eq_false_iff_ne],
          by simp [attr, a2, a3, a4, a5, -beq_eq_false_iff_ne]⟩
      · exact ⟨[(bs "class", bs "form-control"), (bs "id", bs "vesselYear"), (bs "placeholder", bs "Year"), (bs "type", bs "number"), (bs "value", shown (c.val .year))],
          List.mem_of_getElem? (i := 3) rfl, by simp [attr, a1, -beq_eq_false_iff_ne],
          by simp [attr, a2, a3, a4, a5, -beq_eq_false_iff_ne]⟩
      · exact ⟨[(bs "class", bs "form-control"), (bs "id", bs "mmsi"), (bs "placeholder", bs "MMSI"), (bs "value", shown (c.val .mmsi))],
          List.mem_of_getElem? (i := 4) rfl, by simp [attr, a1, -beq_eq_false_iff_ne],
          by simp [attr, a2, a3, a4, a5, -beq_eq_false_iff_ne]⟩
      · exact ⟨[(bs "class", bs "form-control"), (bs "id", bs "callsign"), (bs "placeholder", bs "Callsign"), (bs "value", shown (c.val .callsign))],
          List.mem_of_getElem? (i := 5) rfl, by simp [attr, a1, -beq_eq_false_iff_ne],
          by simp [attr, a2, a3, a4, a5, -beq_eq_false_iff_ne]⟩
      · exact ⟨[(bs "class", bs "form-control"), (bs "id", bs "registration"), (bs "placeholder", bs "Registration"), (bs "value", shown (c.val .registration))],
          List.mem_of_getElem? (i := 6) rfl, by simp [attr, a1, -beq_eq_false_iff_ne],
          by simp [attr, a2, a3, a4, a5, -beq_eq_false_iff_ne]⟩
      · exact ⟨[(bs "class", bs "form-control"), (bs "id", bs "uuid_0"), (bs "value", shown (c.val .uuid0))],
          List.mem_of_getElem? (i := 7) rfl, by simp [attr, a1, -beq_eq_false_iff_ne],
          by simp [attr, a2, a3, a4, a5, -beq_eq_false_iff_ne]⟩
      · exact ⟨[(bs "class", bs "form-control"), (bs "id", bs "uuid_1"), (bs "value", shown (c.val .uuid1))],
          List.mem_of_getElem? (i := 8) rfl, by simp [attr, a1, -beq_eq_false_iff_ne],
          by simp [attr, a2, a3, a4, a5, -beq_eq_false_iff_ne]⟩
      · exact ⟨[(bs "class", bs "form-control"), (bs "id", bs "uuid_2"), (bs "value", shown (c.val .uuid2))],
          List.mem_of_getElem? (i := 9) rfl, by simp [attr, a1, -beq_eq_false_iff_ne],
          by simp [attr, a2, a3, a4, a5, -beq_eq_false_iff_ne]⟩
      · exact ⟨[(bs "class", bs "form-control"), (bs "id", bs "uuid_3"), (bs "value", shown (c.val .uuid3))],
          List.mem_of_getElem? (i := 10) rfl, by simp [attr, a1, -beq_eq_false_iff_ne],
          by simp [attr, a2, a3, a4, a5, -beq_eq_false_iff_ne]⟩
      · exact ⟨[(bs "class", bs "form-control"), (bs "id", bs "uuid_4"), (bs "value", shown (c.val .uuid4))],
          List.mem_of_getElem? (i := 11) rfl, by simp [attr, a1, -beq_eq_false_iff_ne],
          by simp [attr, a2, a3, a4, a5, -beq_eq_false_iff_ne]⟩
      · exact ⟨[(bs "class", bs "form-control"), (bs "id", bs "listenOn"), (bs "placeholder", bs "IP Address"), (bs "value", shown (c.val .listenOn))],
          List.mem_of_getElem? (i := 12) rfl, by simp [attr, a1, -beq_eq_false_iff_ne],
          by simp [attr, a2, a3, a4, a5, -beq_eq_false_iff_ne]⟩
      · exact ⟨[(bs "class", bs "form-control"), (bs "id", bs "port"), (bs "type", bs "number"), (bs "placeholder", bs "Port"), (bs "value", shown (c.val .serverPort))],
          List.mem_of_getElem? (i := 13) rfl, by simp [attr, a1, -beq_eq_false_iff_ne],
          by simp [attr, a2, a3, a4, a5, -beq_eq_false_iff_ne]⟩
      · exact ⟨[(bs "class", bs "form-control"), (bs "id", bs "mqttHost"), (bs "placeholder", bs "Hostname"), (bs "value", shown (c.val .mqttHost))],
          List.mem_of_getElem? (i := 18) rfl, by simp [attr, a1, -beq_eq_false_iff_ne],
          by simp [attr, a2, a3, a4, a5, -beq_eq_false_iff_ne]⟩
      · exact ⟨[(bs "class", bs "form-control"), (bs "id", bs "mqttPort"), (bs "type", bs "number"), (bs "placeholder", bs "Port"), (bs "value", shown (c.val .mqttPort))],
          List.mem_of_getElem? (i := 19) rfl, by simp [attr, a1, -beq_eq_false_iff_ne],
          by simp [attr, a2, a3, a4, a5, -beq_eq_false_iff_ne]⟩
      · exact ⟨[(bs "class", bs "form-control"), (bs "id", bs "mqttClientId"), (bs "placeholder", bs "Client ID"), (bs "value", shown (c.val .clientId))],
          List.mem_of_getElem? (i := 20) rfl, by simp [attr, a1, -beq_eq_false_iff_ne],
          by simp [attr, a2, a3, a4, a5, -beq_eq_false_iff_ne]⟩
      · exact ⟨[(bs "class", bs "form-control"), (bs "id", bs "mqttUsername"), (bs "placeholder", bs "Username"), (bs "value", shown (c.val .username))],
          List.mem_of_getElem? (i := 21) rfl, by simp [attr, a1, -beq_eq_false_iff_ne],
          by simp [attr, a2, a3, a4, a5, -beq_eq_false_iff_ne]⟩
      · exact ⟨[(bs "class", bs "form-control"), (bs "id", bs "mqttPassword"), (bs "type", bs "password"), (bs "placeholder", bs "Password"), (bs "value", shown (c.val .password))],
          List.mem_of_getElem? (i := 22) rfl, by simp [attr, a1, -beq_eq_false_iff_ne],
          by simp [attr, a2, a3, a4, a5, -beq_eq_false_iff_ne]⟩
    intro e he
    obtain ⟨as, hm, h1, h2⟩ := find e he
    exact ⟨as, key _ e.1 as rfl hm h1, h2⟩
  · intro e he
    obtain ⟨h1, as, h2, h3, h4⟩ := box_facts e.1 (List.mem_map_of_mem he) (decide (c.val e.2 = .bool true))
    refine ⟨as, ?_, h3, by simpa using h4⟩
    rw [withId_eq, ← h2]
    have hm : box bs e.1 (decide (c.val e.2 = .bool true)) ∈ inputs c := by
      simp only [boxes, List.mem_cons, List.not_mem_nil, or_false] at he
      rcases he with rfl | rfl | rfl | rfl <;> simp [inputs]
    exact filter_unique (hi ▸ hn) (List.mem_filter.mp (hf ▸ hm)).1 h1

/-- What `.val()` gives of an `input` with this value: line breaks are dropped (HTML standard, 4.10.5.1.2). -/
def oneLine (v : Str) : Str := v.filter (fun b => b != 10 && b != 13)

/-- The browser of C114 that reads the page as a browser does. -/
def browser (parseInt : Str → Option Int) : Config.Browser := ⟨fun s => oneLine (readable s), parseInt⟩

theorem dec_no_break (n : Int) : oneLine (bs (toString n)) = bs (toString n) := by
  have key : ∀ m : Nat, ∀ b ∈ bs (toString m), b ≠ 10 ∧ b ≠ 13 := by
    intro m b hb
    rw [Json.bs_eq, List.mem_flatMap] at hb
    obtain ⟨ch, hc, hz⟩ := hb
    have hd := Json.digit_ascii (Json.dec_digits m ch hc)
    have : ∀ k : Fin 128, 48 ≤ k.val → ∀ b ∈ String.utf8EncodeChar (Char.ofNat k.val), b ≠ 10 ∧ b ≠ 13 := by decide +kernel
    have h2 := this ⟨ch.toNat, by omega⟩ (by simp only; omega) b
    rw [Char.ofNat_toNat] at h2
    exact h2 hz
  have all : ∀ b ∈ bs (toString n), b ≠ 10 ∧ b ≠ 13 := by
    cases n with
    | ofNat m => exact key m
    | negSucc m =>
      have : bs (toString (Int.negSucc m)) = bs "-" ++ bs (toString (m + 1)) := by
        rw [← Json.bs_append]; rfl
      rw [this]
      intro b hb
      rcases List.mem_append.mp hb with h | h
      · exact (show ∀ b ∈ bs "-", b ≠ 10 ∧ b ≠ 13 by decide +kernel) b h
      · exact key _ b h
  unfold oneLine
  rw [List.filter_eq_self]
  intro b hb
  have := all b hb
  simp [this]

/-- **C119** (form): the form C114 starts from is the one a browser makes of the page: the text of each input is the value of
the one element with its id, and a box is checked exactly if it has the attribute. -/
theorem C119_form (c : Conf) (hc : Config.WellTyped c) (parseInt : Str → Option Int) :
    ∃ ts, tokens (indexPage c) = some ts ∧
    (∀ e ∈ fields, ∃ as v, withId ts e.1 = [.start (bs "input") as false] ∧ attr as "value" = some v ∧
      (Config.page (browser parseInt) c).text e.2 = oneLine v) ∧
    (∀ e ∈ boxes, ∃ as, withId ts e.1 = [.start (bs "input") as false] ∧
      (Config.page (browser parseInt) c).checked e.2 = (attr as "checked").isSome) := by
  obtain ⟨ts, ht, h1, h2⟩ := C119_setting c hc
  refine ⟨ts, ht, fun e he => ?_, fun e he => ?_⟩
  · obtain ⟨as, ha, hv⟩ := h1 e he
    refine ⟨as, _, ha, hv, ?_⟩
    have hty := hc e.2
    have hk : (Config.control e.2 = some .text ∧ Config.zeroOf e.2 = .str []) ∨
        (Config.control e.2 = some .number ∧ Config.zeroOf e.2 = .int 0) :=
      (show ∀ e ∈ fields, (Config.control e.2 = some .text ∧ Config.zeroOf e.2 = .str []) ∨
        (Config.control e.2 = some .number ∧ Config.zeroOf e.2 = .int 0) by decide +kernel) e he
    rcases hk with ⟨k1, k2⟩ | ⟨k1, k2⟩
    · rw [k2] at hty
      cases hx : c.val e.2 with
      | str x => simp [Config.page, k1, hx, shown, browser]
      | _ => rw [hx] at hty; cases hty
    · rw [k2] at hty
      cases hx : c.val e.2 with
      | int n =>
        simp only [Config.page, k1, hx, shown]
        exact (dec_no_break n).symm
      | _ => rw [hx] at hty; cases hty
  · obtain ⟨as, ha, _, hv⟩ := h2 e he
    refine ⟨as, ha, ?_⟩
    have hty := hc e.2
    have hk : Config.control e.2 = some .check ∧ Config.zeroOf e.2 = .bool false :=
      (show ∀ e ∈ boxes, Config.control e.2 = some .check ∧ Config.zeroOf e.2 = .bool false by decide +kernel) e he
    rw [hk.2] at hty
    rw [hv]
    cases hx : c.val e.2 with
    | bool b => cases b <;> simp [Config.page, hk.1, hx]
    | _ => rw [hx] at hty; cases hty

/-! ## Addresses -/

/-- Characters an address may have as they are. -/
def ordinary (b : UInt8) : Bool := isUpper b || isLower b || isDigit b || decide (b ∈ bs "!#$&*+,/:;=?@[]-._~")

theorem normalize_ordinary {s : Str} (h : ∀ b ∈ s, ordinary b = true) : normalize s = s := by
  induction s with
  | nil => rfl
  | cons b s ih =>
    have hb := h b List.mem_cons_self
    have ih := ih (fun x hx => h x (List.mem_cons_of_mem _ hx))
    simp only [ordinary, Bool.or_eq_true, decide_eq_true_eq] at hb
    simp only [normalize, ih]
    by_cases h1 : b ∈ bs "!#$&*+,/:;=?@[]-._~"
    · rw [if_pos h1]
    · rw [if_neg h1]
      split
      · rfl
      · rw [if_pos]
        simp only [Bool.or_eq_true]
        rcases hb with hb | hb
        · exact hb
        · exact absurd hb h1

theorem safe_slash (s : Str) : isSafeURL (47 :: s) = true := by
  unfold isSafeURL
  simp

theorem safe_http (r : Str) : isSafeURL (bs "http:" ++ r) = true ∧ isSafeURL (bs "https:" ++ r) = true := by
  have e1 : bs "http:" = bs "http" ++ [58] := by decide +kernel
  have e2 : bs "https:" = bs "https" ++ [58] := by decide +kernel
  have t1 : ∀ b ∈ bs "http", (b != 58) = true := by decide +kernel
  have t2 : ∀ b ∈ bs "https", (b != 58) = true := by decide +kernel
  have f1 : fold (bs "http") = bs "http" := by decide +kernel
  have f2 : fold (bs "https") = bs "https" := by decide +kernel
  constructor
  · unfold isSafeURL
    rw [e1, List.append_assoc, List.takeWhile_append_of_pos t1]
    simp [f1]
  · unfold isSafeURL
    rw [e2, List.append_assoc, List.takeWhile_append_of_pos t2]
    simp [f2]

/-- **C119** (kept): an address on this server or with http or https that has only ordinary characters is the link as it is. -/
theorem C119_kept (s : Str) (h : ∀ b ∈ s, ordinary b = true)
    (hs : (∃ r, s = bs "/" ++ r) ∨ (∃ r, s = bs "http:" ++ r) ∨ ∃ r, s = bs "https:" ++ r) : normalize (urlFilter s) = s := by
  have : isSafeURL s = true := by
    rcases hs with ⟨r, rfl⟩ | ⟨r, rfl⟩ | ⟨r, rfl⟩
    · exact safe_slash r
    · exact (safe_http r).1
    · exact (safe_http r).2
  rw [urlFilter, if_pos this, normalize_ordinary h]

/-- The value of a hexadecimal digit. -/
def hexVal (b : UInt8) : Nat :=
  if isDigit b then b.toNat - 48 else if isLower b then b.toNat - 87 else b.toNat - 55

/-- The path a server is asked for (`url.URL.Path`): the address up to `?` or `#`, with its escapes decoded. -/
def unescape : Str → Str
  | 37 :: x :: y :: r => if isHex x && isHex y then UInt8.ofNat (16 * hexVal x + hexVal y) :: unescape r else 37 :: unescape (x :: y :: r)
  | b :: r => b :: unescape r
  | [] => []

def pathOf (s : Str) : Str := unescape (s.takeWhile (fun b => b != 63 && b != 35))

theorem hex_back : ∀ k : Fin 256, UInt8.ofNat (16 * hexVal (hexDigit (k.val / 16)) + hexVal (hexDigit (k.val % 16))) = UInt8.ofNat k.val := by
  decide +kernel

theorem unescape_cons {b : UInt8} (r : Str) (h : b ≠ 37) : unescape (b :: r) = b :: unescape r := by
  rw [unescape.eq_def]
  split
  · rename_i h'; cases h'; exact absurd rfl h
  · rename_i h'; cases h'; rfl
  · rename_i h'; cases h'

theorem unescape_normalize {s : Str} (h : (37 : UInt8) ∉ s) : unescape (normalize s) = s := by
  induction s with
  | nil => rfl
  | cons b s ih =>
    simp only [List.mem_cons, not_or] at h
    have hb : b ≠ 37 := fun e => h.1 e.symm
    have ih := ih h.2
    simp only [normalize]
    split
    · rw [unescape_cons _ hb, ih]
    · split
      · rw [unescape_cons _ hb, ih]
      · split
        · rw [unescape_cons _ hb, ih]
        · have hl := b.toNat_lt
          have h1 := (hexDigit_ok ⟨b.toNat / 16, by omega⟩).2
          have h2 := (hexDigit_ok ⟨b.toNat % 16, by omega⟩).2
          have h3 := hex_back ⟨b.toNat, hl⟩
          simp only [UInt8.ofNat_toNat] at h3 h1 h2
          rw [unescape, h1, h2, Bool.and_true, if_pos rfl, h3, ih]

/-- Bytes other than `?` and `#` become neither. -/
theorem normalize_path {s : Str} (h : (63 : UInt8) ∉ s ∧ (35 : UInt8) ∉ s) :
    ∀ b ∈ normalize s, (b != 63 && b != 35) = true := by
  have hx : ∀ k : Fin 16, (hexDigit k.val != 63 && hexDigit k.val != 35) = true := by decide +kernel
  induction s with
  | nil => intro b hb; cases hb
  | cons a s ih =>
    simp only [List.mem_cons, not_or] at h
    have ih := ih ⟨h.1.2, h.2.2⟩
    have ha : (a != 63 && a != 35) = true := by
      have h1 : a ≠ 63 := fun e => h.1.1 e.symm
      have h2 : a ≠ 35 := fun e => h.2.1 e.symm
      simp [h1, h2]
    intro b hb
    simp only [normalize] at hb
    repeat' split at hb
    · rcases List.mem_cons.mp hb with rfl | hb
      · exact ha
      · exact ih b hb
    · rcases List.mem_cons.mp hb with rfl | hb
      · exact ha
      · exact ih b hb
    · rcases List.mem_cons.mp hb with rfl | hb
      · exact ha
      · exact ih b hb
    · have hl := a.toNat_lt
      rcases List.mem_cons.mp hb with rfl | hb
      · decide
      · rcases List.mem_cons.mp hb with rfl | hb
        · exact hx ⟨a.toNat / 16, by omega⟩
        · rcases List.mem_cons.mp hb with rfl | hb
          · exact hx ⟨a.toNat % 16, by omega⟩
          · exact ih b hb

/-- **C120** (link of an app, partial): the link of an installed app asks for the path the server wrote (`/apps` and the location
of the app), if that has no `%`, `?` or `#`.  Missing: `C120_path_false`. -/
theorem C120_path_partial (location : Str) (h : ∀ b ∈ [(37 : UInt8), 63, 35], b ∉ location) :
    pathOf (normalize (urlFilter (bs "/apps" ++ location))) = bs "/apps" ++ location := by
  have e : bs "/apps" = [47, 97, 112, 112, 115] := by decide +kernel
  rw [e]
  have hs : isSafeURL ([47, 97, 112, 112, 115] ++ location) = true := safe_slash _
  rw [urlFilter, if_pos hs]
  have hn : ∀ x ∈ [(37 : UInt8), 63, 35], x ∉ [(47 : UInt8), 97, 112, 112, 115] ++ location := by
    intro x hx
    rw [List.mem_append, not_or]
    exact ⟨by revert x; decide, h x hx⟩
  unfold pathOf
  rw [List.takeWhile_eq_self_iff.mpr (normalize_path ⟨hn 63 (by simp), hn 35 (by simp)⟩)]
  exact unescape_normalize (hn 37 (by simp))

/-- **C120** (link of an app, false in general): an app in a directory called `a%41` has a link to `aA`. -/
theorem C120_path_false : ∃ location, pathOf (normalize (urlFilter (bs "/apps" ++ location))) ≠ bs "/apps" ++ location :=
  ⟨bs "/a%41/", by decide +kernel⟩

/-! ## Examples -/

/-- Settings with everything that could break a page. -/
def exConf : Conf where
  val s := match s with
    | .vesselName => .str (bs "\"><script>alert('&amp;')</script>" ++ [0])
    | .mqttUseTls => .bool true
    | .year => .int (-1987)
    | s => Config.zeroOf s
  interfaces := []

example : Config.WellTyped exConf := by intro s; cases s <;> decide +kernel

example : shown (exConf.val .vesselName) = bs "\"><script>alert('&amp;')</script>\uFFFD" := by decide +kernel

example : shown (exConf.val .year) = bs "-1987" := by decide +kernel

/-- A registry that tries to run a script. -/
def exApp : NpmObject :=
  { package := {
      name := bs "<script>x</script>", version := bs "1.0", description := bs "a & b", npm := bs "JavaScript:alert(1)",
      homepage := [], repository := [], author := bs "\"", email := [] },
    path := bs "/apps/@signalk/my app/", version := bs "1.0" }

example : (appRow exApp).filterMap hrefs = [bs "/apps/@signalk/my%20app/", bs "#ZgotmplZ"] := by decide +kernel

example : scheme (address (bs " java\tscript:alert(1)")) = some (bs "javascript") ∧ ¬ Harmless (bs "JavaScript:x") := by
  refine ⟨by decide +kernel, fun h => ?_⟩
  exact absurd (h (bs "javascript") (by decide +kernel)) (by decide +kernel)

example : normalize (urlFilter (bs "https://www.npmjs.com/package/@signalk/freeboard-sk")) =
    bs "https://www.npmjs.com/package/@signalk/freeboard-sk" :=
  C119_kept _ (by decide +kernel) (.inr (.inr ⟨bs "//www.npmjs.com/package/@signalk/freeboard-sk", by decide +kernel⟩))

example : pathOf (normalize (urlFilter (bs "/apps" ++ bs "/@signalk/my app/"))) = bs "/apps/@signalk/my app/" :=
  (C120_path_partial (bs "/@signalk/my app/") (by decide +kernel)).trans (by decide +kernel)

end Argo.Html
