import Verif.Html.Apps
import Verif.Nmea2k.Table

set_option autoImplicit false

/-!
# What the script of the pages inserts (C120)

assets/js/site.js makes three pieces of HTML by joining strings, without escaping.
-/

namespace Argo.Html

open Argo.Signalk (Str bs)

/-! ## Model -/

/-- site.js:55-56: the row of a PGN that is not in the table of statistics yet. -/
def statRow (k v : Str) : Str :=
  bs "<tr><th><a href=\"#\" data-pgn=\"" ++ k ++ bs "\">" ++ k ++ bs "</th><td>" ++ v ++ bs "</td></tr>"

/-- site.js:72: a field of a definition. -/
def fieldItem (name : Str) : Str := bs "<li>" ++ name ++ bs "</li>"

/-- site.js:200: what an app's cell holds after its installation. -/
def installedCell (url p : Str) : Str := bs "<a href=\"" ++ url ++ bs "\">" ++ p ++ bs "</a>"

/-! ## Proofs -/

/-- Text that is itself in HTML. -/
def Plain (s : Str) : Prop := (60 : UInt8) ∉ s ∧ (38 : UInt8) ∉ s ∧ (0 : UInt8) ∉ s

theorem run_plain {s : Str} (h : Plain s) : run (α := UInt8) id .data s = some (.data, txt s) := by
  induction s with
  | nil => rfl
  | cons b s ih =>
    obtain ⟨h1, h2, h3⟩ := h
    simp only [List.mem_cons, not_or] at h1 h2 h3
    have ih := ih ⟨h1.2, h2.2, h3.2⟩
    have e : step (α := UInt8) id .data b = some (.data, [.chr b]) := by
      simp [step, Ne.symm h1.1, Ne.symm h2.1, Ne.symm h3.1]
    simp only [run, e, ih]
    rfl

theorem run_quoted {s : Str} (h : Plain s) (hq : (34 : UInt8) ∉ s) (t as n) (v : Str) :
    run (α := UInt8) id (.quoted 34 t as n v) s = some (.quoted 34 t as n (v ++ s), []) := by
  induction s generalizing v with
  | nil => simp [run]
  | cons b s ih =>
    obtain ⟨h1, h2, h3⟩ := h
    simp only [List.mem_cons, not_or] at h1 h2 h3 hq
    have ih := ih ⟨h1.2, h2.2, h3.2⟩ hq.2 (v ++ [b])
    have e : step (α := UInt8) id (.quoted 34 t as n v) b = some (.quoted 34 t as n (v ++ [b]), []) := by
      simp [step, Ne.symm hq.1, Ne.symm h2.1, Ne.symm h3.1]
    simp only [run, e, ih]
    simp

theorem dec_plain (n : Nat) : Plain (bs (toString n)) ∧ (34 : UInt8) ∉ bs (toString n) := by
  have key : ∀ b ∈ bs (toString n), b ≠ 60 ∧ b ≠ 38 ∧ b ≠ 0 ∧ b ≠ 34 := by
    intro b hb
    rw [Json.bs_eq, List.mem_flatMap] at hb
    obtain ⟨ch, hc, hz⟩ := hb
    have hd := Json.digit_ascii (Json.dec_digits n ch hc)
    have : ∀ k : Fin 128, 48 ≤ k.val → k.val ≤ 57 → ∀ b ∈ String.utf8EncodeChar (Char.ofNat k.val),
      b ≠ 60 ∧ b ≠ 38 ∧ b ≠ 0 ∧ b ≠ 34 := by decide +kernel
    have h2 := this ⟨ch.toNat, by omega⟩ (by simp only; omega) (by simp only; omega) b
    rw [Char.ofNat_toNat] at h2
    exact h2 hz
  exact ⟨⟨fun h => (key _ h).1 rfl, fun h => (key _ h).2.1 rfl, fun h => (key _ h).2.2.1 rfl⟩, fun h => (key _ h).2.2.2 rfl⟩

/-- **C120** (statistics): the row of a PGN and its count is a link with the PGN and a cell with the count, for all numbers. -/
theorem C120_stats (k v : Nat) : tokens (statRow (bs (toString k)) (bs (toString v))) =
    some (tag "tr" ++ tag "th" ++ tag "a" [("href", bs "#"), ("data-pgn", bs (toString k))] ++ txt (bs (toString k)) ++
      untag "th" ++ tag "td" ++ txt (bs (toString v)) ++ untag "td" ++ untag "tr") := by
  obtain ⟨k1, k2⟩ := dec_plain k
  obtain ⟨v1, _⟩ := dec_plain v
  have e1 : run (α := UInt8) id .data (bs "<tr><th><a href=\"#\" data-pgn=\"") =
    some (.quoted 34 (bs "a") [(bs "href", bs "#")] (bs "data-pgn") [], tag "tr" ++ tag "th") := by decide +kernel
  have e2 : ∀ x : Str, run (α := UInt8) id (.quoted 34 (bs "a") [(bs "href", bs "#")] (bs "data-pgn") x) (bs "\">") =
      some (.data, tag "a" [("href", bs "#"), ("data-pgn", x)]) := by
    intro x
    have b1 : bs "\">" = [34, 62] := by decide +kernel
    have b2 : bs "data-pgn" ∉ [bs "href"] := by decide +kernel
    have b3 : bs "a" ∉ otherTags := by decide +kernel
    have b4 : bs "a" ∉ rawTags := by decide +kernel
    have b5 : isSpace 62 = false := by decide
    rw [b1]
    simp [run, step, addAttr, finish, b3, b4, b5, tag] at b2 ⊢
    simp [b2]
  have e3 : run (α := UInt8) id .data (bs "</th><td>") = some (.data, untag "th" ++ tag "td") := by decide +kernel
  have e4 : run (α := UInt8) id .data (bs "</td></tr>") = some (.data, untag "td" ++ untag "tr") := by decide +kernel
  unfold tokens statRow
  simp only [run_append, e1, e2, e3, e4, run_plain k1, run_plain v1, run_quoted k1 k2, Option.bind_some, Option.map_some,
    List.nil_append, List.append_nil, List.append_assoc]

/-- **C120** (fields): the name of every field of every definition appears in the list of the window as it is. -/
theorem C120_fields : ∀ d ∈ Nmea2k.Table.pgnList, ∀ f ∈ d.fieldList,
    tokens (fieldItem (bs f.name)) = some (tag "li" ++ txt (bs f.name) ++ untag "li") := by
  have all : ∀ d ∈ Nmea2k.Table.pgnList, ∀ f ∈ d.fieldList,
      (60 : UInt8) ∉ bs f.name ∧ (38 : UInt8) ∉ bs f.name ∧ (0 : UInt8) ∉ bs f.name := by decide +kernel
  intro d hd f hf
  have e1 : run (α := UInt8) id .data (bs "<li>") = some (.data, tag "li") := by decide +kernel
  have e2 : run (α := UInt8) id .data (bs "</li>") = some (.data, untag "li") := by decide +kernel
  unfold tokens fieldItem
  simp only [run_append, e1, e2, run_plain (all d hd f hf), Option.bind_some, Option.map_some]

/-- **C120** (installation, partial): the link of an app that was just installed is a link with its name, if name and address have
no characters special in HTML.  Missing: `C120_script_false`. -/
theorem C120_script_partial (url p : Str) (hu : Plain url) (hq : (34 : UInt8) ∉ url) (hp : Plain p) :
    tokens (installedCell url p) = some (tag "a" [("href", url)] ++ txt p ++ untag "a") := by
  have e1 : run (α := UInt8) id .data (bs "<a href=\"") = some (.quoted 34 (bs "a") [] (bs "href") [], []) := by decide +kernel
  have e2 : ∀ x : Str, run (α := UInt8) id (.quoted 34 (bs "a") [] (bs "href") x) (bs "\">") = some (.data, tag "a" [("href", x)]) := by
    intro x
    have b1 : bs "\">" = [34, 62] := by decide +kernel
    have b3 : bs "a" ∉ otherTags := by decide +kernel
    have b4 : bs "a" ∉ rawTags := by decide +kernel
    have b5 : isSpace 62 = false := by decide
    rw [b1]
    simp [run, step, addAttr, finish, b3, b4, b5, tag]
  have e3 : run (α := UInt8) id .data (bs "</a>") = some (.data, untag "a") := by decide +kernel
  unfold tokens installedCell
  simp only [run_append, e1, e2, e3, run_plain hp, run_quoted hu hq, Option.bind_some, Option.map_some, List.nil_append,
    List.append_nil, List.append_assoc]

/-- **C120** (installation, false in general): the name of a package, which the page shows as text, is inserted as HTML by
the script when it has been installed: a name the registry chose runs a script in the page. -/
theorem C120_script_false : ∃ (o : Packages.NpmObject) (ts : List (Tok UInt8)),
    (appRow o).flatMap handlers = [] ∧
    tokens (installedCell (bs "/apps/x/") o.package.name) = some ts ∧ ts.flatMap handlers = [bs "onerror"] :=
  ⟨{ package := { name := bs "<img src=\"x\" onerror=\"alert(1)\">", version := [], description := [], npm := [], homepage := [],
                  repository := [], author := [], email := [] }, path := [], version := [] },
   tag "a" [("href", bs "/apps/x/")] ++ tag "img" [("src", bs "x"), ("onerror", bs "alert(1)")] ++ untag "a",
   by decide +kernel, by decide +kernel, by decide +kernel⟩

example : tokens (installedCell (bs "/apps/@signalk/freeboard-sk/") (bs "@signalk/freeboard-sk")) =
    some (tag "a" [("href", bs "/apps/@signalk/freeboard-sk/")] ++ txt (bs "@signalk/freeboard-sk") ++ untag "a") :=
  C120_script_partial _ _ (by unfold Plain; decide +kernel) (by decide +kernel) (by unfold Plain; decide +kernel)

end Argo.Html
