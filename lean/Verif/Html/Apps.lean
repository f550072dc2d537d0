import Verif.Html.Index

set_option autoImplicit false

/-!
# The page of apps (C119)
-/

namespace Argo.Html

open Argo.Signalk (Str bs)
open Argo.Packages (NpmObject)

/-! ## Specification -/

section
variable {α : Type} (l : String → List α)

/-- Text. -/
def txt (s : List α) : List (Tok α) := s.map .chr

/-- A start tag with these attributes. -/
def tag (n : String) (as : List (String × List α) := []) : List (Tok α) :=
  [.start (bs n) (as.map (fun a => (bs a.1, a.2))) false]

/-- An end tag. -/
def untag (n : String) : List (Tok α) := [.stop (bs n)]

/-- A row of the table: its texts are `t name`, ..., its attributes `v name`, ..., its addresses `u path`, ... -/
def row (t v u : AppField → List α) (linked : Bool) : List (Tok α) :=
  txt (l "\n    ") ++ tag "tr" ++
  txt (l "\n      ") ++ tag "td" ++ txt (l "\n        ") ++ tag "form" [("class", l "appInstall")] ++
    txt (l "\n          ") ++ tag "input" [("type", l "hidden"), ("name", l "name"), ("value", v .name)] ++
    txt (l "\n          ") ++ tag "input" [("type", l "hidden"), ("name", l "version"), ("value", v .version)] ++
    txt (l "\n          ") ++ tag "button" [("class", l "btn btn-light btn-sm btn-block")] ++
    txt (l "\n            Install ") ++ txt (t .version) ++ txt (l "\n          ") ++ untag "button" ++ txt (l "\n        ") ++
    untag "form" ++ txt (l "\n      ") ++ untag "td" ++
  txt (l "\n      ") ++ tag "td" [("class", l "version")] ++ txt (t .installed) ++ untag "td" ++
  txt (l "\n      ") ++ tag "td" [("class", l "path")] ++ txt (l "\n        ") ++
    (if linked then
      txt (l "\n          ") ++ tag "a" [("href", u .path)] ++ txt (l "\n            ") ++ txt (t .name) ++ txt (l "\n          ") ++
      untag "a" ++ txt (l "\n        ")
    else txt (l "\n          ") ++ txt (t .name) ++ txt (l "\n        ")) ++ txt (l "\n      ") ++ untag "td" ++
  txt (l "\n      ") ++ tag "td" ++ txt (t .description) ++ untag "td" ++
  txt (l "\n      ") ++ tag "td" ++ txt (t .author) ++ untag "td" ++
  txt (l "\n      ") ++ tag "td" ++ tag "a" [("href", u .npm)] ++ txt (l "npm") ++ untag "a" ++ untag "td" ++
  txt (l "\n    ") ++ untag "tr" ++ txt (l "\n  ")

end

/-- What belongs in the places of a row: the name, the version, the description, the author and the npm address are those of the
package in the registry, the installed version and the path those found on this machine (package.go:13-60). -/
def packageText (o : NpmObject) : AppField → Str
  | .name => o.package.name
  | .version => o.package.version
  | .description => o.package.description
  | .author => o.package.author
  | .npm => o.package.npm
  | .installed => o.version
  | .path => o.path

/-- The row of a package: its texts (a NUL as U+FFFD), its addresses as html/template lets them through; it has a link to the
app if there is a path. -/
def appRow (o : NpmObject) : List (Tok UInt8) :=
  row bs (fun f => readable (packageText o f)) (fun f => readable (packageText o f)) (fun f => normalize (urlFilter (packageText o f))) (decide (o.path ≠ []))

theorem get_text (o : NpmObject) : AppField.get o = packageText o := by
  funext f
  cases f <;> rfl

/-! ## The page -/

def aleaves (ls : List (Leaf AppField)) : List (Sym AppField) := ls.flatMap Leaf.syms

def abyt (s : String) : List (Sym AppField) := (bs s).map .byte

/-- The addresses of links and scripts. -/
def hrefs {α : Type} : Tok α → Option (List α)
  | .start _ as _ => attr as "href"
  | _ => none

def srcs {α : Type} : Tok α → Option (List α)
  | .start _ as _ => attr as "src"
  | _ => none

/-- The attributes whose value is a script. -/
def handlers {α : Type} : Tok α → List Str
  | .start _ as _ => (as.map Prod.fst).filter (fun n => (bs "on").isPrefixOf n)
  | _ => []

/-- What the part before the rows and the part after them have. -/
structure Frame where
  mode : Mode UInt8
  hrefs : List Str
  srcs : List Str
  handlers : List Str
  deriving DecidableEq

def frame (r : Mode UInt8 × List (Tok UInt8)) : Frame :=
  ⟨r.1, r.2.filterMap hrefs, r.2.filterMap srcs, r.2.flatMap handlers⟩

set_option maxRecDepth 100000 in
theorem appsHead_read : (run id .data (render (F := AppField) (fun _ => []) (symsOf (fun _ => false)
    [.leaf (.text layoutHead), .leaf (.text appsHead)]))).map frame =
    some ⟨.data, ["/assets/css/bootstrap.min.css", "/assets/css/site.css", "/", "/", "/apps", "#"].map bs, [], []⟩ := by
  decide +kernel

set_option maxRecDepth 100000 in
theorem appsFoot_read : (run id .data (render (F := AppField) (fun _ => []) (symsOf (fun _ => false)
    [.leaf (.text appsFoot), .leaf (.text layoutFoot)]))).map frame =
    some ⟨.data, ["https://github.com/timmathews/argo", "http://signalk.org", "http://www.gnu.org/licenses/gpl-3.0.html"].map bs,
      ["/assets/js/jquery.min.js", "/assets/js/popper.min.js", "/assets/js/bootstrap.min.js", "/assets/js/site.js"].map bs, []⟩ := by
  decide +kernel

def ahole (e : Esc) (f : AppField) : List (Sym AppField) := [.hole e f]

/-- The template of a row, read. -/
theorem row_read : ∀ linked : Bool, runT .data (symsOf (fun _ => linked) appsRow) =
    some (.data, row abyt (ahole .text) (ahole .attr) (ahole .url) linked) := by
  decide +kernel

theorem row_syms (truth : AppField → Bool) : symsOf truth appsRow = symsOf (fun _ => truth .path) appsRow := by
  unfold symsOf appsRow
  simp only [List.flatMap_append, List.flatMap_map, List.flatMap_cons, List.flatMap_nil, Node.syms]

theorem putT_app {F : Type} (σ : Esc → F → Str) (a b : List (Tok (Sym F))) : putT σ (a ++ b) = putT σ a ++ putT σ b :=
  List.flatMap_append

theorem put_txt {F : Type} (σ : Esc → F → Str) (v : List (Sym F)) : putT σ (txt v) = txt (putV σ v) := by
  induction v with
  | nil => rfl
  | cons a v ih =>
    simp only [txt, putT, putV, List.map_cons, List.flatMap_cons, List.map_append] at ih ⊢
    rw [ih]
    rfl

theorem put_tag {F : Type} (σ : Esc → F → Str) (n : String) (as : List (String × List (Sym F))) :
    putT σ (tag n as) = tag n (as.map (fun a => (a.1, putV σ a.2))) := by
  simp [putT, tag, Tok.put, putA, Function.comp_def]

theorem put_untag {F : Type} (σ : Esc → F → Str) (n : String) : putT σ (untag n) = untag n := rfl

theorem put_abyt (σ : Esc → AppField → Str) (s : String) : putV σ (abyt s) = bs s := putV_bytes σ _

theorem put_ahole (σ : Esc → AppField → Str) (e : Esc) (f : AppField) : putV σ (ahole e f) = σ e f := by
  simp [putV, ahole, Sym.put]

theorem put_row (σ : Esc → AppField → Str) (linked : Bool) :
    putT σ (row abyt (ahole .text) (ahole .attr) (ahole .url) linked) = row bs (σ .text) (σ .attr) (σ .url) linked := by
  unfold row
  cases linked <;>
  simp only [putT_app, put_txt, put_tag, put_untag, put_abyt, put_ahole, List.map_cons, List.map_nil, if_true, if_false,
    Bool.false_eq_true]

/-! ## Addresses -/

/-- What `normalize` may write. -/
def urlByte (b : UInt8) : Bool := b ∈ bs "!#$&*+,/:;=?@[]-._~" || isUpper b || isLower b || isDigit b || b == 37

theorem hexDigit_ok : ∀ n : Fin 16, urlByte (hexDigit n.val) = true ∧ isHex (hexDigit n.val) = true := by decide +kernel

theorem normalize_bytes (s : Str) : ∀ b ∈ normalize s, urlByte b = true := by
  induction s with
  | nil => intro b hb; cases hb
  | cons a s ih =>
    intro b hb
    simp only [normalize] at hb
    split at hb
    · rename_i h
      rcases List.mem_cons.mp hb with rfl | hb
      · simp [urlByte, h]
      · exact ih b hb
    · split at hb
      · rename_i h
        rcases List.mem_cons.mp hb with rfl | hb
        · simp only [Bool.and_eq_true] at h
          simp [urlByte, h.1]
        · exact ih b hb
      · split at hb
        · rename_i h
          rcases List.mem_cons.mp hb with rfl | hb
          · simp only [Bool.or_eq_true] at h
            simp only [urlByte, Bool.or_eq_true]
            rcases h with (h | h) | h <;> simp [h]
          · exact ih b hb
        · have ha := a.toNat_lt
          rcases List.mem_cons.mp hb with rfl | hb
          · decide +kernel
          · rcases List.mem_cons.mp hb with rfl | hb
            · exact (hexDigit_ok ⟨a.toNat / 16, by omega⟩).1
            · rcases List.mem_cons.mp hb with rfl | hb
              · exact (hexDigit_ok ⟨a.toNat % 16, by omega⟩).1
              · exact ih b hb

theorem urlByte_plain : ∀ k : Fin 256, urlByte (UInt8.ofNat k.val) = true →
    ¬ (k.val ≤ 32) ∧ UInt8.ofNat k.val ≠ 0 := by decide +kernel

theorem urlByte_large {b : UInt8} (h : urlByte b = true) : 32 < b.toNat ∧ b ≠ 0 := by
  have := urlByte_plain ⟨b.toNat, b.toNat_lt⟩
  simp only [UInt8.ofNat_toNat] at this
  exact ⟨Nat.lt_of_not_le (this h).1, (this h).2⟩

theorem normalize_readable (s : Str) : readable (normalize s) = normalize s :=
  readable_plain fun h => (urlByte_large (normalize_bytes s 0 h)).2 rfl

theorem normalize_address (s : Str) : address (normalize s) = normalize s := by
  have h := normalize_bytes s
  unfold address
  have e : (normalize s).filter (fun b => b != 9 && b != 10 && b != 13) = normalize s := by
    rw [List.filter_eq_self]
    intro b hb
    have := (urlByte_large (h b hb)).1
    simp only [Bool.and_eq_true, bne_iff_ne, ne_eq]
    refine ⟨⟨?_, ?_⟩, ?_⟩ <;> (rintro rfl; exact absurd this (by decide))
  rw [e]
  cases hn : normalize s with
  | nil => rfl
  | cons b r =>
    have := (urlByte_large (h b (by rw [hn]; exact List.mem_cons_self))).1
    rw [List.dropWhile_cons_of_neg (by simp; omega)]

/-- Characters of a scheme. -/
def schemeByte (b : UInt8) : Bool := isUpper b || isLower b || isDigit b || b == 43 || b == 45 || b == 46

theorem schemeTail_some {s t : Str} (h : schemeTail s = some t) :
    ∃ p r, s = p ++ 58 :: r ∧ (∀ b ∈ p, schemeByte b = true) ∧ t = p.map lower := by
  induction s generalizing t with
  | nil => cases h
  | cons b s ih =>
    simp only [schemeTail] at h
    split at h
    · rename_i hb
      have hb : b = 58 := by simpa using hb
      cases h
      exact ⟨[], s, by rw [hb]; rfl, by simp, rfl⟩
    · split at h
      · rename_i hb
        obtain ⟨u, hu, rfl⟩ := Option.map_eq_some_iff.mp h
        obtain ⟨p, r, rfl, hp, rfl⟩ := ih hu
        refine ⟨b :: p, r, rfl, ?_, rfl⟩
        intro x hx
        rcases List.mem_cons.mp hx with rfl | hx
        · exact hb
        · exact hp x hx
      · cases h

theorem scheme_some {s t : Str} (h : scheme s = some t) :
    ∃ p r, s = p ++ 58 :: r ∧ (∀ b ∈ p, schemeByte b = true) ∧ t = p.map lower := by
  cases s with
  | nil => cases h
  | cons b s =>
    simp only [scheme] at h
    split at h
    · rename_i hb
      obtain ⟨u, hu, rfl⟩ := Option.map_eq_some_iff.mp h
      obtain ⟨p, r, rfl, hp, rfl⟩ := schemeTail_some hu
      refine ⟨b :: p, r, rfl, ?_, rfl⟩
      intro x hx
      rcases List.mem_cons.mp hx with rfl | hx
      · simp only [Bool.or_eq_true] at hb
        simp only [schemeByte, Bool.or_eq_true]
        rcases hb with hb | hb <;> simp [hb]
      · exact hp x hx
    · cases h

theorem schemeByte_facts : ∀ k : Fin 256, schemeByte (UInt8.ofNat k.val) = true →
    UInt8.ofNat k.val ≠ 37 ∧ UInt8.ofNat k.val ≠ 58 ∧ UInt8.ofNat k.val ≠ 47 ∧ UInt8.ofNat k.val ≠ 0xC5 := by decide +kernel

theorem schemeByte_ne {b : UInt8} (h : schemeByte b = true) : b ≠ 37 ∧ b ≠ 58 ∧ b ≠ 47 ∧ b ≠ 0xC5 := by
  have := schemeByte_facts ⟨b.toNat, b.toNat_lt⟩
  simp only [UInt8.ofNat_toNat] at this
  exact this h

/-- A byte of the result that is not a percent sign was there before. -/
theorem normalize_head {s r : Str} {b : UInt8} (h : normalize s = b :: r) (hb : b ≠ 37) : ∃ s', s = b :: s' ∧ normalize s' = r := by
  cases s with
  | nil => cases h
  | cons a s =>
    simp only [normalize] at h
    repeat' split at h
    · cases h; exact ⟨s, rfl, rfl⟩
    · cases h; exact ⟨s, rfl, rfl⟩
    · cases h; exact ⟨s, rfl, rfl⟩
    · cases h; exact absurd rfl hb

theorem normalize_prefix {s p r : Str} (h : normalize s = p ++ r) (hp : ∀ b ∈ p, b ≠ 37) : ∃ s', s = p ++ s' ∧ normalize s' = r := by
  induction p generalizing s with
  | nil => exact ⟨s, rfl, h⟩
  | cons b p ih =>
    obtain ⟨s1, rfl, h1⟩ := normalize_head h (hp b List.mem_cons_self)
    obtain ⟨s2, rfl, h2⟩ := ih h1 (fun x hx => hp x (List.mem_cons_of_mem _ hx))
    exact ⟨s2, rfl, h2⟩

theorem fold_plain {s : Str} (h : (0xC5 : UInt8) ∉ s) : fold s = s.map lower := by
  induction s with
  | nil => rfl
  | cons a s ih =>
    simp only [List.mem_cons, not_or] at h
    have ha : (a == 0xC5) = false := by simpa using fun e => h.1 e.symm
    cases s with
    | nil => rfl
    | cons b r =>
      simp only [fold, ha, Bool.false_and, Bool.false_eq_true, if_false]
      rw [ih h.2]
      rfl

/-- An address that cannot run a script: relative to the page, or of one of three protocols. -/
def Harmless (v : Str) : Prop := ∀ p, scheme (address v) = some p → p ∈ [bs "http", bs "https", bs "mailto"]

theorem harmless_url (s : Str) : Harmless (normalize (urlFilter s)) := by
  intro sc hs
  rw [normalize_address] at hs
  unfold urlFilter at hs
  split at hs
  · rename_i hsafe
    obtain ⟨p, r, hn, hp, rfl⟩ := scheme_some hs
    have hn' : normalize s = (p ++ [58]) ++ r := by rw [hn]; simp
    obtain ⟨s', rfl, _⟩ := normalize_prefix hn' (by
      intro b hb
      rcases List.mem_append.mp hb with hb | hb
      · exact (schemeByte_ne (hp b hb)).1
      · rw [List.mem_singleton.mp hb]; decide)
    have hpro : (p ++ [58] ++ s').takeWhile (fun b => b != 58) = p := by
      rw [List.append_assoc, List.takeWhile_append_of_pos (by intro b hb; simpa using (schemeByte_ne (hp b hb)).2.1)]
      simp
    have hfold : fold p = p.map lower := fold_plain fun h => (schemeByte_ne (hp _ h)).2.2.2 rfl
    have h47 : (47 : UInt8) ∉ p := fun h => (schemeByte_ne (hp _ h)).2.2.1 rfl
    simp only [isSafeURL, hpro, hfold] at hsafe
    rw [if_pos ⟨by simp, h47⟩] at hsafe
    simp only [Bool.or_eq_true, beq_iff_eq] at hsafe
    simp only [List.mem_cons, List.not_mem_nil, or_false]
    rcases hsafe with (h | h) | h
    · exact Or.inl h
    · exact Or.inr (Or.inl h)
    · exact Or.inr (Or.inr h)
  · have : scheme (normalize (bs "#ZgotmplZ")) = none := by decide +kernel
    rw [this] at hs
    cases hs

/-! ## The page -/

theorem row_tokens (o : NpmObject) :
    run id .data (render (AppField.get o) (symsOf (fun f => AppField.get o f != []) appsRow)) = some (.data, appRow o) := by
  have hr := row_read (o.path != [])
  have hs := row_syms (fun f => AppField.get o f != [])
  rw [hs]
  have := run_put (AppField.get o) (value (AppField.get o)) (reads_value _) hr
  rw [put_row] at this
  simp only [Mode.put] at this
  rw [show AppField.get o .path = o.path from rfl, this]
  unfold appRow
  rw [← get_text o]
  have e0 : decide (o.path ≠ []) = (o.path != []) := by by_cases h : o.path = [] <;> simp [h]
  have e1 : value (AppField.get o) .text = fun f => readable (AppField.get o f) := rfl
  have e2 : value (AppField.get o) .attr = fun f => readable (AppField.get o f) := rfl
  have e3 : value (AppField.get o) .url = fun f => normalize (urlFilter (AppField.get o f)) := by
    funext f
    exact normalize_readable _
  rw [e0, e1, e2, e3]

theorem rows_tokens (l : List NpmObject) :
    run id .data (l.flatMap (fun o => render (AppField.get o) (symsOf (fun f => AppField.get o f != []) appsRow))) =
    some (.data, l.flatMap appRow) := by
  induction l with
  | nil => rfl
  | cons o l ih =>
    rw [List.flatMap_cons, run_append, row_tokens]
    simp [ih]

/-- **C119** (apps): whatever the registry sends, a browser reads the page of apps as a fixed part, one row for every package
and a fixed part; a row has the same tags for all packages but for the link to an installed app, and its texts are those of the
package. -/
theorem C119_apps : ∃ head foot : List (Tok UInt8),
    head.filterMap hrefs = ["/assets/css/bootstrap.min.css", "/assets/css/site.css", "/", "/", "/apps", "#"].map bs ∧
    foot.filterMap hrefs =
      ["https://github.com/timmathews/argo", "http://signalk.org", "http://www.gnu.org/licenses/gpl-3.0.html"].map bs ∧
    (head ++ foot).filterMap srcs =
      ["/assets/js/jquery.min.js", "/assets/js/popper.min.js", "/assets/js/bootstrap.min.js", "/assets/js/site.js"].map bs ∧
    (head ++ foot).flatMap handlers = [] ∧
    ∀ l : List NpmObject, tokens (appsPage l) = some (head ++ l.flatMap appRow ++ foot) := by
  obtain ⟨⟨m1, head⟩, h1, e1⟩ := Option.map_eq_some_iff.mp appsHead_read
  obtain ⟨⟨m2, foot⟩, h2, e2⟩ := Option.map_eq_some_iff.mp appsFoot_read
  simp only [frame, Frame.mk.injEq] at e1 e2
  obtain ⟨rfl, a1, a2, a3⟩ := e1
  obtain ⟨rfl, b1, b2, b3⟩ := e2
  refine ⟨head, foot, a1, b1, ?_, ?_, fun l => ?_⟩
  · rw [List.filterMap_append, a2, b2]; rfl
  · rw [List.flatMap_append, a3, b3]; rfl
  · unfold tokens appsPage
    rw [run_append, run_append, h1, Option.bind_some, rows_tokens]
    simp only [Option.map_some, Option.bind_some, h2]

theorem row_hrefs (o : NpmObject) (v : Str) (h : v ∈ (appRow o).filterMap hrefs) :
    (v = normalize (urlFilter o.path) ∧ o.path ≠ []) ∨ v = normalize (urlFilter o.package.npm) := by
  have ht : ∀ s : Str, (txt s).filterMap hrefs = [] := by
    intro s
    induction s with
    | nil => rfl
    | cons a s ih => simp [txt, hrefs]
  have hu : ∀ n : String, (untag n : List (Tok UInt8)).filterMap hrefs = [] := fun _ => rfl
  have h0 : ∀ n : String, (tag n : List (Tok UInt8)).filterMap hrefs = [] := fun _ => rfl
  have n1 : (bs "class" == bs "href") = false := by decide +kernel
  have n2 : (bs "type" == bs "href") = false := by decide +kernel
  have n3 : (bs "name" == bs "href") = false := by decide +kernel
  have n4 : (bs "value" == bs "href") = false := by decide +kernel
  have h1 : ∀ (n : String) (v : Str), (tag n [("class", v)]).filterMap hrefs = [] := by
    intro n v; simp [tag, hrefs, attr, n1, -beq_eq_false_iff_ne]
  have h2 : ∀ (n : String) (u v w : Str), (tag n [("type", u), ("name", v), ("value", w)]).filterMap hrefs = [] := by
    intro n u v w; simp [tag, hrefs, attr, n2, n3, n4, -beq_eq_false_iff_ne]
  have h3 : ∀ (n : String) (v : Str), (tag n [("href", v)]).filterMap hrefs = [v] := by
    intro n v; simp [tag, hrefs, attr]
  unfold appRow row at h
  simp only [List.filterMap_append, ht, hu, h0, h1, h2, h3, List.nil_append, List.append_nil] at h
  rcases List.mem_append.mp h with h | h
  · by_cases hp : o.path = []
    · simp [hp, ht] at h
    · left
      simp only [hp, ne_eq, not_false_eq_true, decide_true, if_true, List.filterMap_append, ht, hu, h3, List.nil_append,
        List.append_nil, List.mem_singleton] at h
      exact ⟨h, hp⟩
  · right
    exact List.mem_singleton.mp h

/-- **C119** (links): whatever the registry sends, no link of the page of apps can run a script: it is relative to the page or
its protocol is http, https or mailto. -/
theorem C119_links (l : List NpmObject) : ∃ ts, tokens (appsPage l) = some ts ∧ ∀ v ∈ ts.filterMap hrefs, Harmless v := by
  obtain ⟨head, foot, hh, hf, _, _, ht⟩ := C119_apps
  refine ⟨_, ht l, fun v hv => ?_⟩
  have hc : ∀ v ∈ (["/assets/css/bootstrap.min.css", "/assets/css/site.css", "/", "/", "/apps", "#"] ++
      ["https://github.com/timmathews/argo", "http://signalk.org", "http://www.gnu.org/licenses/gpl-3.0.html"]).map bs,
      (scheme (address v)).all (fun p => decide (p ∈ [bs "http", bs "https", bs "mailto"])) = true := by decide +kernel
  have hc' : ∀ v ∈ (["/assets/css/bootstrap.min.css", "/assets/css/site.css", "/", "/", "/apps", "#"] ++
      ["https://github.com/timmathews/argo", "http://signalk.org", "http://www.gnu.org/licenses/gpl-3.0.html"]).map bs, Harmless v := by
    intro v hv p hp
    have := hc v hv
    rw [hp] at this
    simpa using this
  rw [List.filterMap_append, List.filterMap_append, hh, hf] at hv
  rcases List.mem_append.mp hv with hv | hv
  · rcases List.mem_append.mp hv with hv | hv
    · exact hc' v (by rw [List.map_append]; exact List.mem_append_left _ hv)
    · obtain ⟨t, ht1, ht2⟩ := List.mem_filterMap.mp hv
      obtain ⟨o, _, ho⟩ := List.mem_flatMap.mp ht1
      rcases row_hrefs o v (List.mem_filterMap.mpr ⟨t, ho, ht2⟩) with ⟨h, _⟩ | h
      · rw [h]; exact harmless_url _
      · rw [h]; exact harmless_url _
  · exact hc' v (by rw [List.map_append]; exact List.mem_append_right _ hv)

end Argo.Html
