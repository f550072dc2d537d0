import Verif.Http.Types

set_option autoImplicit false

/-! # The label of every reply (C129): theorems -/

namespace Argo.Http

open Argo
open Argo.Signalk (Str bs)
open Argo.Nmea2k (Pgn)
open Argo.Nmea2k

theorem label_none {fonts : Bool} {b : Str} (h : b ≠ []) : label fonts ⟨none, b⟩ = some (sniff fonts b) := by
  simp only [label, h, if_false]

/-! ## Pages -/

theorem render_bytes {F : Type} (print : F → Str) (l : Str) (r : List (Html.Sym F)) :
    Html.render print (l.map .byte ++ r) = l ++ Html.render print r := by
  simp only [Html.render, List.flatMap_append]
  congr 1
  induction l with
  | nil => rfl
  | cons b l ih => simp only [List.map_cons, List.flatMap_cons, ih]; rfl

theorem head_start : (Html.strip false 0 Html.layoutHead).take 16 = bs "\n<!DOCTYPE html>" := by decide +kernel

theorem sniff_page (fonts : Bool) (r : Str) : sniff fonts (bs "\n<!DOCTYPE html>" ++ r) = htmlLabel := by
  have e : bs "\n<!DOCTYPE html>" = 10 :: 60 :: 33 :: 68 :: 79 :: 67 :: 84 :: 89 :: 80 :: 69 :: 32 :: 104 :: 116 :: 109 :: 108 :: [62] := by
    decide +kernel
  have h : Sig.detect ((bs "\n<!DOCTYPE html>" ++ r).take 512) (.html (bs "<!DOCTYPE HTML")) = some htmlLabel := by
    have e2 : bs "<!DOCTYPE HTML" = [60, 33, 68, 79, 67, 84, 89, 80, 69, 32, 72, 84, 77, 76] := by decide +kernel
    rw [e, e2]
    rfl
  unfold sniff sniffSignatures sigs1
  simp only [List.map_cons, List.cons_append, List.findSome?_cons, h]
  rfl

theorem head_split : ∃ r, Html.strip false 0 Html.layoutHead = bs "\n<!DOCTYPE html>" ++ r :=
  ⟨_, by rw [← head_start, List.take_append_drop]⟩

theorem index_page (c : Config.Conf) : ∃ r, Html.indexPage c = bs "\n<!DOCTYPE html>" ++ r := by
  obtain ⟨r, hr⟩ := head_split
  unfold Html.indexPage Html.symsOf
  rw [List.flatMap_cons, Html.Node.syms, Html.Leaf.syms, render_bytes, hr, List.append_assoc]
  exact ⟨_, rfl⟩

theorem apps_page (l : List Packages.NpmObject) : ∃ r, Html.appsPage l = bs "\n<!DOCTYPE html>" ++ r := by
  obtain ⟨r, hr⟩ := head_split
  unfold Html.appsPage Html.symsOf
  rw [List.flatMap_cons, Html.Node.syms, Html.Leaf.syms, render_bytes, hr, List.append_assoc, List.append_assoc, List.append_assoc]
  exact ⟨_, rfl⟩

/-- **C129** (pages): whatever the settings are and whatever packages there are, the front page, the page of apps and the
home page of the API are labelled as HTML, so that a browser shows them. -/
theorem C129_pages (fonts : Bool) (c : Config.Conf) (l : List Packages.NpmObject) :
    label fonts (front true c) = some htmlLabel ∧ label fonts (apps true (some l)) = some htmlLabel ∧
    label fonts home = some htmlLabel := by
  have hne : ∀ r, bs "\n<!DOCTYPE html>" ++ r ≠ [] := by
    intro r h
    have := (List.append_eq_nil_iff.mp h).1
    exact absurd this (by decide +kernel)
  refine ⟨?_, ?_, ?_⟩
  · obtain ⟨r, hr⟩ := index_page c
    simp only [front, if_true, hr]
    rw [label_none (hne r), sniff_page]
  · obtain ⟨r, hr⟩ := apps_page l
    simp only [apps, if_true, hr]
    rw [label_none (hne r), sniff_page]
  · cases fonts <;> decide +kernel

/-! ## Data -/

theorem plain_object (fonts : Bool) {r : Str} (hlp : ((123 :: r).drop 34).take 2 ≠ bs "LP")
    (hx : ∀ x ∈ 123 :: r, binary x = false) : label fonts ⟨none, 123 :: r⟩ = some textLabel := by
  rw [label_none (by simp)]
  have := sniff_plain fonts (b := 123) (t := []) (r := r) (by decide) (by decide) (by decide +kernel) (by decide +kernel)
    (by simpa using hlp) (by simp) (by simpa using hx)
  simp only [List.cons_append, List.nil_append] at this
  rw [this]; rfl

theorem plain_array (fonts : Bool) {r : Str} (hlp : ((91 :: r).drop 34).take 2 ≠ bs "LP")
    (hx : ∀ x ∈ 91 :: r, binary x = false) : label fonts ⟨none, 91 :: r⟩ = some textLabel := by
  rw [label_none (by simp)]
  have := sniff_plain fonts (b := 91) (t := []) (r := r) (by decide) (by decide) (by decide +kernel) (by decide +kernel)
    (by simpa using hlp) (by simp) (by simpa using hx)
  simp only [List.cons_append, List.nil_append] at this
  rw [this]; rfl

/-- **C129** is false of the index of PGNs: the reply is JSON (`C105_index`), and whatever is asked for it is labelled as
plain text, never as JSON. -/
theorem C129_index_false (newer fonts : Bool) (fold : String → String → Bool) (category typ : String) :
    ∃ r, index newer Table.pgnList fold category typ = .ok r ∧ label fonts r = some textLabel ∧ takenFor textLabel = none := by
  refine ⟨_, by unfold index Json.indexReply; rw [Main.C70_index]; rfl, ?_, by decide⟩
  generalize hl : (Main.numbered Table.pgnList).filter (fun e => Main.wanted fold category typ e.2) = l
  have hmem : ∀ e ∈ l, e.2 ∈ Table.pgnList := by
    intro e he
    rw [← hl] at he
    have := (List.mem_filter.mp he).1
    exact (List.of_mem_zip (show (e.1, e.2) ∈ _ from this)).2
  have hnum : Json.Numbers (Json.indexOut (l.map (fun e => Main.entryFor e.1 e.2))) := by
    unfold Json.indexOut
    split
    · trivial
    · refine (Json.numbersL_iff _).mpr fun o ho => ?_
      obtain ⟨e, _, rfl⟩ := List.mem_map.mp ho
      exact Json.entry_numbers e
  have htext := layout_text newer indented_text 0 _ hnum
  cases l with
  | nil => cases fonts <;> cases newer <;> decide +kernel
  | cons e l =>
    obtain ⟨r, hr⟩ := index_start newer e.1 e.2 (l.map (fun e => Main.entryFor e.1 e.2))
    obtain ⟨h1, h2⟩ := index_lp newer e.2 (hmem e List.mem_cons_self)
    have hlp := lp_prefix (r := r) h1 h2
    have ht : ∀ x ∈ indexStart newer e.2 ++ r, binary x = false := by
      intro x hx
      rw [← hr] at hx
      exact htext x hx
    show label fonts ⟨none, Json.printIndent newer (Json.indexOut (Main.entryFor e.1 e.2 :: l.map (fun e => Main.entryFor e.1 e.2)))⟩ = _
    rw [hr]
    exact plain_array fonts hlp ht

/-- **C129** is false of the details of PGNs: whatever key is asked for, a reply in JSON (`C105_details`) is labelled as plain
text. -/
theorem C129_details_false (newer fonts : Bool) {scale : String → Str} (hs : ∀ s, Json.IsNumber (scale s))
    (xmlScale : String → List Char) (ord : Json.MapOrder) {key : Str} {d : Pgn}
    (h : Main.messageDetails Table.pgnList key = .ok (d, false)) :
    ∃ r, details newer scale xmlScale ord Table.pgnList key = .ok r ∧ label fonts r = some textLabel := by
  refine ⟨⟨none, Json.printIndent newer (Json.pgnOut scale ord d)⟩, by unfold details Json.detailsReply; rw [h]; rfl, ?_⟩
  obtain ⟨r, hr⟩ := details_start newer scale ord d
  obtain ⟨h1, h2⟩ := details_lp newer d (Json.details_mem h)
  have hlp := lp_prefix (r := r) h1 h2
  have ht : ∀ x ∈ detailsStart newer d ++ r, binary x = false := by
    intro x hx
    rw [← hr] at hx
    exact layout_text newer indented_text 0 _ (Json.pgn_numbers hs ord d) x hx
  rw [hr]
  exact plain_object fonts hlp ht

/-- **C129** is false of details in XML as well: they are labelled as plain text too, and the empty reply for PGN 60928
(`C109_claim_false`) has no label. -/
theorem C129_xml_false (newer fonts : Bool) (scale : String → Str) {xmlScale : String → List Char}
    (hs : ∀ s, ∀ c ∈ xmlScale s, Xml.legal c = true) (ord : Json.MapOrder) {key : Str} {d : Pgn}
    (h : Main.messageDetails Table.pgnList key = .ok (d, true)) :
    ∃ r, details newer scale xmlScale ord Table.pgnList key = .ok r ∧
      ((∀ f ∈ d.fieldList, ∀ t, f.units ≠ .subLookup t) → label fonts r = some textLabel) ∧
      ((¬ ∀ f ∈ d.fieldList, ∀ t, f.units ≠ .subLookup t) → label fonts r = none) := by
  by_cases hp : ∀ f ∈ d.fieldList, ∀ t, f.units ≠ .subLookup t
  · obtain ⟨o, e, f, _⟩ := Xml.pgn_fine hs (Xml.shipped_legal d (Json.details_mem h)) hp
    refine ⟨⟨none, (Xml.print o).flatMap String.utf8EncodeChar⟩, ?_, fun _ => ?_, fun hn => absurd hp hn⟩
    · unfold details Json.detailsReply Xml.detailsReply
      rw [h]
      simp only [bind, Except.bind, pure, Except.pure, e, Option.map_some, Option.getD_some, if_true]
    · obtain ⟨r, hr⟩ := xml_start e
      obtain ⟨h1, h2⟩ := xml_lp d (Json.details_mem h)
      have hlp := lp_prefix (r := r) h1 h2
      have ht : ∀ x ∈ xmlStart d ++ r, binary x = false := by
        intro x hx
        rw [← hr] at hx
        obtain ⟨c, hc, hx⟩ := List.mem_flatMap.mp hx
        exact char_text (print_ge o f c hc) x hx
      rw [hr]
      have es : bs "<Pgn><Description>" = 60 :: [80, 103, 110, 62] ++ bs "<Description>" := by decide +kernel
      have e2 : xmlStart d ++ r = 60 :: [80, 103, 110, 62] ++ (bs "<Description>" ++
          ((d.description.toList.flatMap Xml.escChar).flatMap String.utf8EncodeChar ++ (bs "</Description><Category>" ++ r))) := by
        rw [xmlStart, es]
        simp only [List.append_assoc]
      rw [e2] at hlp ht ⊢
      rw [label_none (by simp), sniff_plain fonts (by decide) (by decide) (by decide +kernel) (by decide +kernel) hlp (by decide) ht]
      rfl
  · refine ⟨⟨none, []⟩, ?_, fun h' => absurd h' hp, fun _ => rfl⟩
    have := (Xml.C109_claim_false (scale := xmlScale) h hp).1
    unfold details Json.detailsReply
    rw [h, this]
    rfl

/-- **C129** (the UUID): the reply is labelled as JSON, so that `$.get('/admin/uuid')` of the front page (site.js:34) hands its
function an object and not a text (the five parts, `C105_uuid`). -/
theorem C129_uuid (newer fonts : Bool) (u : Str) : ∃ t, label fonts (uuid newer u) = some t ∧ takenFor t = some "json" :=
  ⟨_, rfl, by decide⟩

/-- **C129** (data is never a page): nothing the API, the settings, the UUID or the installer write is labelled as HTML, whatever
is asked for and whatever a package or an error is called; so no browser runs what is in it. -/
theorem C129_data (newer fonts : Bool) {scale : String → Str} (hs : ∀ s, Json.IsNumber (scale s)) {xmlScale : String → List Char}
    (hx : ∀ s, ∀ c ∈ xmlScale s, Xml.legal c = true) (ord : Json.MapOrder) {r : Reply}
    (h : (∃ fold category typ, index newer Table.pgnList fold category typ = .ok r) ∨
      (∃ key, details newer scale xmlScale ord Table.pgnList key = .ok r) ∨ (∃ post ok, r = send post ok) ∨
      (∃ u, r = uuid newer u) ∨ (∃ post ok, r = admin post ok) ∨ ∃ post outcome, r = install post outcome) :
    ∀ t, label fonts r = some t → t ∈ ["text/plain; charset=utf-8", "text/json", "application/json; charset=utf-8"] := by
  intro t ht
  rcases h with ⟨fold, category, typ, h⟩ | ⟨key, h⟩ | ⟨post, ok, rfl⟩ | ⟨u, rfl⟩ | ⟨post, ok, rfl⟩ | ⟨post, outcome, rfl⟩
  · obtain ⟨r', h1, h2, _⟩ := C129_index_false newer fonts fold category typ
    rw [h] at h1
    cases h1
    rw [h2] at ht
    cases ht
    simp [textLabel]
  · have hd : ∃ d x, Main.messageDetails Table.pgnList key = .ok (d, x) := by
      cases hm : Main.messageDetails Table.pgnList key with
      | error e =>
        unfold details Json.detailsReply at h
        rw [hm] at h
        cases h
      | ok p => exact ⟨p.1, p.2, rfl⟩
    obtain ⟨d, x, hd⟩ := hd
    cases x with
    | false =>
      obtain ⟨r', h1, h2⟩ := C129_details_false newer fonts hs xmlScale ord hd
      rw [h] at h1
      cases h1
      rw [h2] at ht
      cases ht
      simp [textLabel]
    | true =>
      obtain ⟨r', h1, h2, h3⟩ := C129_xml_false newer fonts scale hx ord hd
      rw [h] at h1
      cases h1
      by_cases hp : ∀ f ∈ d.fieldList, ∀ t, f.units ≠ .subLookup t
      · rw [h2 hp] at ht
        cases ht
        simp [textLabel]
      · rw [h3 hp] at ht
        cases ht
  · revert ht
    cases fonts <;> cases post <;> cases ok <;> revert t <;> decide +kernel
  · cases ht
    simp
  · cases post <;> cases ok <;> first | (cases ht; simp) | cases ht
  · cases post
    · cases ht
      simp
    · cases ht
      simp

/-! ## The hypotheses can be met, and the model sniffs -/

example : Main.messageDetails Table.pgnList (bs "2") = .ok (Table.p2, false) ∧
    Main.messageDetails Table.pgnList (bs "2.xml") = .ok (Table.p2, true) := by decide +kernel

example : ∀ s, Json.IsNumber ((fun _ => bs "0.01" : String → Str) s) := fun _ => (by unfold Json.IsNumber; decide +kernel : Json.IsNumber (bs "0.01"))

example : ∀ s, ∀ c ∈ Xml.exampleScale s, Xml.legal c = true := by intro s; simp only [Xml.exampleScale]; decide

/-- An XML declaration would have been recognised; upper and lower case are the same in HTML; a GIF is a GIF. -/
example : sniff true (bs "  <?xml version=\"1.0\"?><Pgn/>") = "text/xml; charset=utf-8" ∧
    sniff true (bs "<p>x</p>") = "text/html; charset=utf-8" ∧ sniff true (bs "<Pgn>") = "text/plain; charset=utf-8" ∧
    sniff true (bs "GIF89a") = "image/gif" ∧ sniff true [1, 2, 3] = "application/octet-stream" := by decide +kernel

/-- Why the places of `LP` matter: with a description like this one the details would be labelled as a font. -/
example : sniff true (bs "{\n  \"Description\": \"12345678901234LP\"}") = "application/vnd.ms-fontobject" ∧
    sniff false (bs "{\n  \"Description\": \"12345678901234LP\"}") = "text/plain; charset=utf-8" := by decide +kernel

end Argo.Http
