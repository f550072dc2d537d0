import Verif.Packages.Keys
import Verif.Json.Pages

set_option autoImplicit false

/-!
# C113: the page of apps and the installation of an app

main/ui_server.go:117-181, templates/apps.gtpl and main/packages.go:27-34.  `http.Get`, JSON decoding and parsing the
templates are left open: each may fail, and the registry may reply anything.  Escaping by html/template is not
modelled: the page is the list of the values it is given.
-/

namespace Argo.Packages

open Argo
open Argo.Signalk (bs)
open Argo.Path (Good)

/-- ui_server.go:48-66 `npmLinks`, `npmAuthor` and `npmPackage`. -/
structure NpmPackage where
  name : Str
  version : Str
  description : Str
  npm : Str
  homepage : Str
  repository : Str
  author : Str
  email : Str
  deriving DecidableEq, Repr

/-- ui_server.go:42-46 `npmObject`.  JSON decoding fills all three members if the registry sends them. -/
structure NpmObject where
  package : NpmPackage
  path : Str
  version : Str
  deriving DecidableEq, Repr

/-- ui_server.go:139-145: the installed ones are marked. -/
def mark (inst : List (Str × Pkg)) : List NpmObject → List NpmObject
  | [] => []
  | v :: vs =>
    (match mapGet inst v.package.name with
      | some val => { v with path := bs "/apps" ++ val.location, version := val.version }
      | none => v) :: mark inst vs

/-- The answer of the page. -/
inductive Answer where
  /-- status 405 -/
  | methodNotAllowed
  /-- status 200 with an empty body -/
  | blank
  /-- the page with one row for every object, in order (templates/apps.gtpl:15-45) -/
  | rows (l : List NpmObject)
  deriving DecidableEq, Repr

/-- ui_server.go:117-153 `appsHandler`.  `reply` is what the registry sends: `none` when it cannot be reached,
`some none` when it is not the JSON expected. -/
def appsHandler (isGet templates : Bool) (reply : Option (Option (List NpmObject))) (inst : List (Str × Pkg)) : Answer :=
  if isGet then
    if templates then
      match reply with
      | none => .blank
      | some none => .blank
      | some (some objects) => .rows (mark inst objects)
    else .blank
  else .methodNotAllowed

/-- packages.go:28-34: the command line of an installation. -/
def yarn (name version : Str) : List Str :=
  [bs "yarn", bs "add", name ++ bs "@" ++ version, bs "--json", bs "--silent"]

/-- templates/apps.gtpl:17-21 and assets/js/site.js:183-201: what the button of a row posts, as decoded by
ui_server.go:158-159 (`pkgRequest`). -/
def request (o : NpmObject) : Str × Str := (o.package.name, o.package.version)

/-! ## Specification -/

variable (parse : Str → Option Pkg) (join : Str → Str → Str)

/-- The webapp `q` is listed as installed under the name `k` (C77: the path of its directory below node_modules, every
level on the way having readable packages only). -/
def IsInstalled (listable : Bool) (d : Dir) (k : Str) (q : Pkg) : Prop :=
  listable = true ∧ ∃ ns d' n sub p, CleanLevel d ns d' ∧ Webapp parse d' n sub p ∧ k = joinPath ns n ∧ Shown join p sub q

/-- A row of the page shows the webapp as installed: the name is a link (apps.gtpl:28-34). -/
def Linked (r : NpmObject) : Prop := r.path ≠ []

theorem mark_get (inst : List (Str × Pkg)) (objects : List NpmObject) :
    (mark inst objects).length = objects.length ∧
    ∀ (i : Nat) (o : NpmObject), objects[i]? = some o → (mark inst objects)[i]? = some
      (match mapGet inst o.package.name with
        | some val => { o with path := bs "/apps" ++ val.location, version := val.version }
        | none => o) := by
  induction objects with
  | nil => exact ⟨rfl, by simp⟩
  | cons v vs ih =>
    refine ⟨by simp [mark, ih.1], ?_⟩
    intro i o h
    cases i with
    | zero => simp at h; subst h; rfl
    | succ i => simp at h; simpa [mark] using ih.2 i o h

/-- **C113** (rows): whatever the registry replies and whatever the tree of node_modules is, the page has one row for
every object of the reply, in that order, with that package; a row has the link and version of the webapp installed
under the package's name if there is one, and otherwise what the reply says. -/
theorem C113_rows (listable : Bool) (d : Dir) (hr : Real d) (objects : List NpmObject) :
    ∃ rows, appsHandler true true (some (some objects)) (installed parse join listable d) = .rows rows ∧
      rows.length = objects.length ∧
      ∀ (i : Nat) (o : NpmObject), objects[i]? = some o → ∃ r, rows[i]? = some r ∧ r.package = o.package ∧
        (∀ q, IsInstalled parse join listable d o.package.name q → r.path = bs "/apps" ++ q.location ∧ r.version = q.version) ∧
        ((∀ q, ¬ IsInstalled parse join listable d o.package.name q) → r.path = o.path ∧ r.version = o.version) := by
  have hi : ∀ k q, mapGet (installed parse join listable d) k = some q ↔ IsInstalled parse join listable d k q :=
    fun k q => (C77_lookup parse join listable d hr k q).trans (C77_exact parse join listable d k q)
  refine ⟨_, rfl, (mark_get _ _).1, fun i o ho => ⟨_, (mark_get _ _).2 i o ho, ?_, ?_, ?_⟩⟩
  · cases mapGet (installed parse join listable d) o.package.name <;> rfl
  · intro q hq
    rw [(hi _ _).2 hq]
    exact ⟨rfl, rfl⟩
  · intro hn
    cases hm : mapGet (installed parse join listable d) o.package.name with
    | none => exact ⟨rfl, rfl⟩
    | some q => exact absurd ((hi _ _).1 hm) (hn q)

/-- **C113** (button): the button of a row installs the version the registry offers in that place of its reply, whether
or not the app is installed and in whatever version. -/
theorem C113_button (listable : Bool) (d : Dir) (objects : List NpmObject) :
    ∃ rows, appsHandler true true (some (some objects)) (installed parse join listable d) = .rows rows ∧
      ∀ (i : Nat) (o : NpmObject), objects[i]? = some o → ∃ r, rows[i]? = some r ∧
        yarn (request r).1 (request r).2 =
          [bs "yarn", bs "add", o.package.name ++ bs "@" ++ o.package.version, bs "--json", bs "--silent"] := by
  refine ⟨_, rfl, fun i o ho => ⟨_, (mark_get _ _).2 i o ho, ?_⟩⟩
  cases mapGet (installed parse join listable d) o.package.name <;> rfl

/-- **C113** (marked, partial): if the reply gives its objects no path and version of their own, as the npm registry
does, and every package directory has a readable package.json, then for every row: the name is a link exactly if a webapp
is in the directory of that name, and then the installed version is that of its package.json; otherwise the version is
empty.  Missing: replies with such members (`C113_reply_false`) and trees with a directory without package.json
(`C113_unmarked_false`). -/
theorem C113_marked_partial (d : Dir) (hr : Real d) (hc : ∀ ns d', Level d ns d' → Clean d') (objects : List NpmObject)
    (ho : ∀ o ∈ objects, o.path = [] ∧ o.version = []) :
    ∃ rows, appsHandler true true (some (some objects)) (installed parse join true d) = .rows rows ∧
      ∀ (i : Nat) (o r : NpmObject), objects[i]? = some o → rows[i]? = some r →
        (Linked r ↔ ∃ ns d' n sub p, Level d ns d' ∧ Webapp parse d' n sub p ∧ o.package.name = joinPath ns n) ∧
        (∀ ns d' n sub p, Level d ns d' → Webapp parse d' n sub p → o.package.name = joinPath ns n → r.version = p.version) ∧
        (¬ Linked r → r.version = []) := by
  obtain ⟨rows, h1, h2, h3⟩ := C113_rows parse join true d hr objects
  refine ⟨rows, h1, fun i o r hi hri => ?_⟩
  obtain ⟨r', hr', _, hin, hout⟩ := h3 i o hi
  rw [hri] at hr'
  injection hr' with hr'
  subst hr'
  obtain ⟨ho1, ho2⟩ := ho o (List.mem_of_getElem? hi)
  have shown : ∀ ns d' n sub p, Level d ns d' → Webapp parse d' n sub p → o.package.name = joinPath ns n →
      ∃ q, IsInstalled parse join true d o.package.name q ∧ q.version = p.version := by
    intro ns d' n sub p hl hw hn
    refine ⟨{ p with location := location join p sub }, ⟨rfl, ns, d', n, sub, p, hl.clean hc, hw, hn, ?_⟩, rfl⟩
    exact (shown_iff join p sub _).1 rfl
  have none_inst : (¬ ∃ ns d' n sub p, Level d ns d' ∧ Webapp parse d' n sub p ∧ o.package.name = joinPath ns n) →
      ∀ q, ¬ IsInstalled parse join true d o.package.name q := by
    rintro hne q ⟨_, ns, d', n, sub, p, hl, hw, hk, _⟩
    exact hne ⟨ns, d', n, sub, p, hl.level, hw, hk⟩
  have linked : (∃ ns d' n sub p, Level d ns d' ∧ Webapp parse d' n sub p ∧ o.package.name = joinPath ns n) → Linked r := by
    rintro ⟨ns, d', n, sub, p, hl, hw, hn⟩
    obtain ⟨q, hq, _⟩ := shown ns d' n sub p hl hw hn
    unfold Linked
    rw [(hin q hq).1]
    intro he
    have := congrArg List.length he
    rw [List.length_append, show (bs "/apps").length = 5 by decide +kernel] at this
    simp at this
  have iff : Linked r ↔ ∃ ns d' n sub p, Level d ns d' ∧ Webapp parse d' n sub p ∧ o.package.name = joinPath ns n := by
    refine ⟨fun hl => Classical.byContradiction fun hne => hl ?_, linked⟩
    rw [(hout (none_inst hne)).1, ho1]
  refine ⟨iff, ?_, ?_⟩
  · intro ns d' n sub p hl hw hn
    obtain ⟨q, hq, hv⟩ := shown ns d' n sub p hl hw hn
    rw [(hin q hq).2, hv]
  · intro hl
    rw [(hout (none_inst (fun h => hl (iff.2 h)))).2, ho2]

/-- **C113** is false (reply): an object of the registry's reply that has a path and version of its own is shown as
installed, with that link, although nothing is installed. -/
theorem C113_reply_false :
    ∃ (o : NpmObject), (∀ (parse : Str → Option Pkg) (join : Str → Str → Str) (k : Str) (q : Pkg),
        ¬ IsInstalled parse join true .nil k q) ∧
      ∀ parse join, ∃ r, appsHandler true true (some (some [o])) (installed parse join true .nil) = .rows [r] ∧ Linked r ∧
        r.path = bs "http://elsewhere/" := by
  refine ⟨⟨⟨bs "a", bs "1", [], [], [], [], [], []⟩, bs "http://elsewhere/", bs "1"⟩, ?_, ?_⟩
  · rintro parse join k q ⟨_, ns, d', n, sub, p, hl, ⟨⟨l, hw⟩, _, _, _, _⟩, _⟩
    cases hl with
    | top _ _ => cases hw
    | down _ _ _ _ _ _ _ he _ => cases he
  · intro parse join
    refine ⟨_, rfl, ?_, rfl⟩
    have : bs "http://elsewhere/" ≠ [] := by decide +kernel
    exact this

/-- **C113** is false (unmarked): an installed webapp is not shown as installed if another directory in node_modules has
no package.json. -/
theorem C113_unmarked_false :
    ∃ (parse : Str → Option Pkg) (join : Str → Str → Str) (d : Dir) (n : Str) (sub : Dir) (p : Pkg),
      Webapp parse d n sub p ∧ ∀ o : NpmObject, o.package.name = n → o.path = [] →
        ∃ r, appsHandler true true (some (some [o])) (installed parse join true d) = .rows [r] ∧ ¬ Linked r := by
  obtain ⟨parse, join, d, n, sub, p, hw, he⟩ := C77_false
  refine ⟨parse, join, d, n, sub, p, hw, fun o _ hp => ⟨o, ?_, fun h => h hp⟩⟩
  rw [he]
  rfl

/-- **C113** (failures): without the templates, without a reply, or with a reply that is not the JSON expected, the page
is empty with status 200; other methods than GET are refused. -/
theorem C113_failures (isGet templates : Bool) (reply : Option (Option (List NpmObject))) (inst : List (Str × Pkg)) :
    (appsHandler isGet templates reply inst = .methodNotAllowed ↔ isGet = false) ∧
    (appsHandler isGet templates reply inst = .blank ↔
      isGet = true ∧ (templates = false ∨ ∀ objects, reply ≠ some (some objects))) := by
  unfold appsHandler
  cases isGet <;> cases templates <;> rcases reply with _ | _ | l <;> simp

/-! ## The installation -/

theorem at_split (a b x y : Str) (hx : (64 : UInt8) ∉ x) (hy : (64 : UInt8) ∉ y) (h : a ++ 64 :: x = b ++ 64 :: y) :
    a = b ∧ x = y := by
  have aux : ∀ (u v x' y' : Str), (64 : UInt8) ∉ u → (64 : UInt8) ∉ v → u ++ 64 :: x' = v ++ 64 :: y' → u = v ∧ x' = y' := by
    intro u
    induction u with
    | nil =>
      intro v x' y' _ hv he
      cases v with
      | nil => simpa using he
      | cons c cs => simp at he; exact absurd (by rw [← he.1]; simp) hv
    | cons c cs ih =>
      intro v x' y' hu hv he
      cases v with
      | nil => simp at he; exact absurd (by rw [he.1]; simp) hu
      | cons e es =>
        simp only [List.cons_append, List.cons.injEq] at he
        obtain ⟨h1, h2⟩ := ih es x' y' (fun m => hu (by simp [m])) (fun m => hv (by simp [m])) he.2
        exact ⟨by rw [he.1, h1], h2⟩
  have hr := congrArg List.reverse h
  simp only [List.reverse_append, List.reverse_cons, List.append_assoc, List.singleton_append] at hr
  obtain ⟨h1, h2⟩ := aux _ _ _ _ (by simpa using hx) (by simpa using hy) hr
  exact ⟨by simpa using congrArg List.reverse h2, by simpa using congrArg List.reverse h1⟩

/-- **C113** (argument, partial): the command line of an installation determines package and version, if the version has
no `@`.  Missing: `C113_argument_false`. -/
theorem C113_argument_partial (n v n' v' : Str) (hv : (64 : UInt8) ∉ v) (hv' : (64 : UInt8) ∉ v')
    (h : yarn n v = yarn n' v') : n = n' ∧ v = v' := by
  unfold yarn at h
  rw [show bs "@" = [64] by decide +kernel] at h
  simp only [List.cons.injEq, true_and, and_true, List.append_assoc, List.singleton_append] at h
  exact at_split _ _ _ _ hv hv' h

/-- **C113** is false (argument): two requests for different packages run the same command. -/
theorem C113_argument_false : ∃ n v n' v', n ≠ n' ∧ v ≠ v' ∧ yarn n v = yarn n' v' :=
  ⟨bs "a", bs "b@c", bs "a@b", bs "c", by decide +kernel, by decide +kernel, by decide +kernel⟩

/-- **C113** (options): the word for yarn is an option instead of a package exactly if the posted name begins with a dash;
such names are not refused. -/
theorem C113_option (n v : Str) :
    ∃ w, yarn n v = [bs "yarn", bs "add", w, bs "--json", bs "--silent"] ∧ (bs "-" <+: w ↔ bs "-" <+: n) := by
  refine ⟨_, rfl, ?_⟩
  rw [show bs "-" = [45] by decide +kernel, show bs "@" = [64] by decide +kernel]
  cases n with
  | nil => simp
  | cons c cs => simp [List.cons_prefix_cons]

/-! ## The row after the button was used -/

/-- What the row shows. -/
structure Row where
  /-- the cell "Installed Version" -/
  version : Str
  /-- the link of the name, if it is one -/
  link : Option (List Char)
  deriving DecidableEq, Repr

/-- templates/apps.gtpl:25-34. -/
def shownRow (o : NpmObject) : Row := ⟨o.version, if o.path = [] then none else some (Json.chars o.path)⟩

/-- `res.url` in a string, assets/js/site.js:196: the last member of that name, as `JSON.parse` keeps it.  Members that
are no strings do not occur in the replies and are not modelled. -/
def urlOf : Json.Json → List Char
  | .obj ms =>
    match ms.reverse.find? (fun e => e.1 = "url".toList) with
    | some (_, .str s) => s
    | _ => "undefined".toList
  | _ => "undefined".toList

/-- assets/js/site.js:192-197: the row once the reply is there; `JSON.parse` throws if it is not JSON, and nothing is
changed.  HTML in the link is not modelled. -/
def afterReply (row : Row) (version : Str) (reply : List UInt8) : Row :=
  match Json.read reply with
  | some j => ⟨version, some (urlOf j)⟩
  | none => row

/-- **C113** (installed): once an installation has succeeded, the row shows the version asked for and the link the page
has for the webapp from then on, for every package with a plain ASCII name that sets no location of its own.  -/
theorem C113_installed_partial (row : Row) (version : Str) (p : Pkg) (sub : Dir) (cs : List Char)
    (hn : p.name = cs.flatMap String.utf8EncodeChar) (hb : Json.Bare cs) (hp : Path.Plain p.name) (hl : p.location = []) :
    let after := afterReply row version (Json.installReply (.ok (Routes.pathForPackage Routes.join2 (sub.has indexHtml) p.name)))
    after.version = version ∧
    ∀ o : NpmObject, after.link =
      (shownRow { o with path := bs "/apps" ++ location Routes.join2 p sub }).link := by
  intro after
  have e1 : Routes.pathForPackage Routes.join2 (sub.has indexHtml) p.name = bs "/apps" ++ location Routes.join2 p sub := by
    rw [Routes.path_installed _ _ hp]
    unfold location
    have ba : bs "/apps/" = bs "/apps" ++ [47] := by decide +kernel
    simp only [hl, if_true, slash, Routes.join_public _ hp, ba]
    split <;> simp
  have e2 : ∃ tail : List Char, Json.Bare tail ∧
      bs "/apps" ++ location Routes.join2 p sub = tail.flatMap String.utf8EncodeChar := by
    refine ⟨"/apps/".toList ++ (cs ++ if sub.has indexHtml then [] else "/public".toList), ?_, ?_⟩
    · intro c hc
      rcases List.mem_append.1 hc with hc | hc
      · exact Json.bare_of (s := "/apps/") (by decide) c hc
      · rcases List.mem_append.1 hc with hc | hc
        · exact hb c hc
        · split at hc
          · cases hc
          · exact Json.bare_of (s := "/public") (by decide) c hc
    · rw [← e1, Routes.path_installed _ _ hp, hn, List.flatMap_append, List.flatMap_append, Json.bs_eq]
      split <;> simp [Json.bs_eq]
  obtain ⟨tail, ht, he⟩ := e2
  have hr := (Json.reads_iff _ _).1 (((Json.C105_install_partial ht).2 _).2 rfl)
  have ha : after = ⟨version, some tail⟩ := by
    show afterReply row version (Json.installReply (.ok _)) = _
    unfold afterReply
    rw [e1, he, hr]
    rfl
  rw [ha]
  refine ⟨rfl, fun o => ?_⟩
  unfold shownRow
  rw [if_neg]
  · show some tail = some (Json.chars _)
    rw [he, Json.chars_utf8]
  · intro h
    have := congrArg List.length h
    rw [List.length_append, show (bs "/apps").length = 5 by decide +kernel] at this
    simp at this

/-- **C113** is false (failed installation): whatever plain error yarn gives (such as "exit status 1"), the row then shows
the version as installed, with a link to `undefined`; an error with quotation marks (such as yarn not being found) leaves the
row as it was, without any message. -/
theorem C113_failure_false (row : Row) (version : Str) :
    (∀ cs, Json.Bare cs → afterReply row version (Json.installReply (.error (cs.flatMap String.utf8EncodeChar)))
      = ⟨version, some "undefined".toList⟩) ∧
    afterReply row version (Json.installReply (.error (bs "exec: \"yarn\": executable file not found in $PATH"))) = row := by
  constructor
  · intro cs h
    have hr := (Json.reads_iff _ _).1 (((Json.C105_install_partial h).1 _).2 rfl)
    unfold afterReply
    rw [hr]
    rfl
  · unfold afterReply
    have : Json.read (Json.installReply (.error (bs "exec: \"yarn\": executable file not found in $PATH"))) = none := by
      have : (Json.read (Json.installReply (.error (bs "exec: \"yarn\": executable file not found in $PATH")))).isNone = true := by
        decide +kernel
      simpa using this
    rw [this]

/-! ## Examples -/

/-- A reply with the webapp `a` and one that is not installed. -/
def exReply : List NpmObject :=
  [⟨⟨bs "z", bs "3.0.0", [], [], [], [], [], []⟩, [], []⟩, ⟨⟨bs "a", bs "2.0.0", [], [], [], [], [], []⟩, [], []⟩]

/-- The page for the example tree: the second row has a link and the installed version. -/
example : appsHandler true true (some (some exReply)) (installed exParse (fun a b => a ++ b) true exTree) =
    .rows [⟨⟨bs "z", bs "3.0.0", [], [], [], [], [], []⟩, [], []⟩,
      ⟨⟨bs "a", bs "2.0.0", [], [], [], [], [], []⟩, bs "/apps/a", bs "1.0.0"⟩] := by decide +kernel

/-- The example tree meets the hypotheses of `C113_marked_partial`. -/
theorem exTree_ok : Real exTree ∧ (∀ ns d', Level exTree ns d' → Clean d') ∧ ∀ o ∈ exReply, o.path = [] ∧ o.version = [] := by
  have hn : ∀ n l sub, ¬ Entry .nil n l sub := by intro n l sub h; cases h
  have top : ∀ n l sub, Entry exTree n l sub →
      (n = dotBin ∧ sub = .nil) ∨ (n = bs "@s" ∧ sub = .dir (bs "c") true (pkgDir [1]) .nil) ∨
      (n = bs "a" ∧ sub = .file indexHtml (some []) (pkgDir [1])) ∨ (n = bs "b" ∧ sub = pkgDir [2]) := by
    intro n l sub h
    simp only [exTree, entry_dir, entry_file] at h
    rcases h with h | h | h | h | h
    · exact Or.inl ⟨h.1, h.2.2⟩
    · exact Or.inr (Or.inl ⟨h.1, h.2.2⟩)
    · exact Or.inr (Or.inr (Or.inl ⟨h.1, h.2.2⟩))
    · exact Or.inr (Or.inr (Or.inr ⟨h.1, h.2.2⟩))
    · exact absurd h (hn _ _ _)
  have inner : ∀ n l sub, Entry (.dir (bs "c") true (pkgDir [1]) .nil) n l sub → n = bs "c" ∧ sub = pkgDir [1] := by
    intro n l sub h
    simp only [entry_dir] at h
    rcases h with h | h
    · exact ⟨h.1, h.2.2⟩
    · exact absurd h (hn _ _ _)
  have lev : ∀ ns d', Level exTree ns d' → d' = exTree ∨ d' = .dir (bs "c") true (pkgDir [1]) .nil := by
    intro ns d' h
    cases h with
    | top => exact Or.inl rfl
    | down _ n sub ns _ hs he hl =>
      rcases top _ _ _ he with ⟨rfl, _⟩ | ⟨_, rfl⟩ | ⟨rfl, _⟩ | ⟨rfl, _⟩
      · exact absurd hs (by decide +kernel)
      · cases hl with
        | top => exact Or.inr rfl
        | down _ n' sub' ns' _ hs' he' _ => rw [(inner _ _ _ he').1] at hs'; exact absurd hs' (by decide +kernel)
      · exact absurd hs (by decide +kernel)
      · exact absurd hs (by decide +kernel)
  refine ⟨⟨?_, ?_⟩, ?_, by decide +kernel⟩
  · intro ns d' hl n l sub l' sub' h h'
    rcases lev _ _ hl with rfl | rfl
    · have d1 : dotBin ≠ bs "@s" := by decide +kernel
      have d2 : dotBin ≠ bs "a" := by decide +kernel
      have d3 : dotBin ≠ bs "b" := by decide +kernel
      have d4 : bs "@s" ≠ bs "a" := by decide +kernel
      have d5 : bs "@s" ≠ bs "b" := by decide +kernel
      have d6 : bs "a" ≠ bs "b" := by decide +kernel
      rcases top _ _ _ h with ⟨rfl, rfl⟩ | ⟨rfl, rfl⟩ | ⟨rfl, rfl⟩ | ⟨rfl, rfl⟩ <;>
        rcases top _ _ _ h' with ⟨e, rfl⟩ | ⟨e, rfl⟩ | ⟨e, rfl⟩ | ⟨e, rfl⟩ <;>
        first | rfl | exact absurd e (by assumption) | exact absurd e.symm (by assumption)
    · rw [(inner _ _ _ h).2, (inner _ _ _ h').2]
  · intro ns d' hl n l sub h
    rcases lev _ _ hl with rfl | rfl
    · rcases top _ _ _ h with ⟨rfl, _⟩ | ⟨rfl, _⟩ | ⟨rfl, _⟩ | ⟨rfl, _⟩ <;> decide +kernel
    · rw [(inner _ _ _ h).1]; decide +kernel
  · intro ns d' hl n l sub h h1 h2
    rcases lev _ _ hl with rfl | rfl
    · rcases top _ _ _ h with ⟨rfl, _⟩ | ⟨rfl, _⟩ | ⟨_, rfl⟩ | ⟨_, rfl⟩
      · exact absurd rfl h2
      · exact absurd h1 (by decide +kernel)
      · exact ⟨[1], (reads_iff _ _ _).1 (by decide +kernel)⟩
      · exact ⟨[2], (reads_iff _ _ _).1 (by decide +kernel)⟩
    · rw [(inner _ _ _ h).2]; exact ⟨[1], (reads_iff _ _ _).1 (by decide +kernel)⟩

/-- The hypotheses of `C113_installed_partial` are met by a scoped package. -/
example : bs "@s/c" = "@s/c".toList.flatMap String.utf8EncodeChar ∧ Json.Bare "@s/c".toList ∧ Path.Plain (bs "@s/c") :=
  ⟨Json.bs_eq _, Json.bare_of (by decide), by unfold Path.Plain Good; decide +kernel⟩

end Argo.Packages
