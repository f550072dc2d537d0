import Verif.Routes.Props

set_option autoImplicit false

/-!
# C86: the pages, the apps and the advertised links
-/

namespace Argo.Routes

open Argo
open Argo.Signalk (bs)

theorem apps_pre (k rest : Str) : (bs "/apps/" ++ k).isPrefixOf (bs "/apps/" ++ rest) = decide (k <+: rest) := by
  rw [Bool.eq_iff_iff, List.isPrefixOf_iff_prefix, List.prefix_append_right_inj, decide_eq_true_eq]

theorem app_handler (rest : Str) : stripped (bs "/apps/") .appFile (bs "/apps/" ++ rest) = .appFile rest := by
  unfold stripped
  rw [if_pos (List.isPrefixOf_iff_prefix.2 (List.prefix_append _ _)), List.drop_left]

/-- App routes in front of other routes, on a path below /apps/. -/
theorem mux_apps (apps : List Str) (more : List (Pat × (Str → Str → Handler))) (rest : Str) :
    muxServe (apps.map (fun k => appRoute (bs "/apps/" ++ k)) ++ more) (bs "/apps/" ++ rest) =
      if ∃ k ∈ apps, k <+: rest then .appFile rest else muxServe more (bs "/apps/" ++ rest) := by
  induction apps with
  | nil => simp
  | cons a apps ih =>
    simp only [List.map_cons, List.cons_append, muxServe, appRoute, Pat.matches, apps_pre, decide_eq_true_eq]
    by_cases h : a <+: rest
    · rw [if_pos h, if_pos ⟨a, by simp, h⟩]; exact app_handler rest
    · rw [if_neg h]
      simp only [List.mem_cons, exists_eq_or_imp, h, false_or]
      exact ih

theorem mux_added (added : List Str) (rest : Str) :
    muxServe (added.map appRoute) (bs "/apps/" ++ rest) =
      if ∃ p ∈ added, p <+: bs "/apps/" ++ rest then .appFile rest else .notFound := by
  induction added with
  | nil => simp [muxServe]
  | cons a added ih =>
    simp only [List.map_cons, muxServe, appRoute, Pat.matches, List.isPrefixOf_iff_prefix]
    by_cases h : a <+: bs "/apps/" ++ rest
    · rw [if_pos h, if_pos ⟨a, by simp, h⟩]; exact app_handler rest
    · rw [if_neg h]
      simp only [List.mem_cons, exists_eq_or_imp, h, false_or]
      exact ih

theorem mux_ui_apps (apps added : List Str) (rest : Str) :
    muxServe (uiRoutes apps added) (bs "/apps/" ++ rest) =
      if ∃ k ∈ apps, k <+: rest then .appFile rest
      else if rest = bs "install" then .appInstall
      else if ∃ p ∈ added, p <+: bs "/apps/" ++ rest then .appFile rest
      else .notFound := by
  unfold uiRoutes
  rw [List.append_assoc, mux_apps]
  congr 1
  have ba : bs "/apps/" = [47, 97, 112, 112, 115, 47] := by decide +kernel
  have h1 : (bs "/assets/").isPrefixOf (bs "/apps/" ++ rest) = false := by
    rw [ba, show bs "/assets/" = [47, 97, 115, 115, 101, 116, 115, 47] by decide +kernel]; rfl
  have h2 : bs "/apps/" ++ rest ≠ bs "/admin/uuid" := by
    rw [ba, show bs "/admin/uuid" = [47, 97, 100, 109, 105, 110, 47, 117, 117, 105, 100] by decide +kernel]; simp
  have h3 : bs "/apps/" ++ rest ≠ bs "/admin" := by
    rw [ba, show bs "/admin" = [47, 97, 100, 109, 105, 110] by decide +kernel]; simp
  have h4 : bs "/apps/" ++ rest = bs "/apps/install" ↔ rest = bs "install" := by
    rw [show bs "/apps/install" = bs "/apps/" ++ bs "install" by decide +kernel, List.append_cancel_left_eq]
  have h5 : bs "/apps/" ++ rest ≠ bs "/apps" := by
    rw [ba, show bs "/apps" = [47, 97, 112, 112, 115] by decide +kernel]; simp
  have h6 : bs "/apps/" ++ rest ≠ bs "/" := by
    rw [ba, show bs "/" = [47] by decide +kernel]; simp
  simp only [List.cons_append, List.nil_append, muxServe, Pat.matches, h1, h2, h3, h4, h5, h6,
    Bool.false_eq_true, if_false]
  by_cases h : rest = bs "install"
  · simp only [if_pos h]
  · simp only [if_neg h]; exact mux_added added rest

/-- A path below /apps/ reaches the router of the pages. -/
theorem serve_apps {clean : Str → Str} {regs : List (Str × Target)} (h : AllRegistered regs)
    (apps added : List Str) (rest : Str) (hc : clean (bs "/apps/" ++ rest) = bs "/apps/" ++ rest) :
    serve clean true regs apps added (bs "/apps/" ++ rest)
      = some (muxServe (uiRoutes apps added) (bs "/apps/" ++ rest)) := by
  have ba : bs "/apps/" = [47, 97, 112, 112, 115, 47] := by decide +kernel
  rw [serve_full h apps added hc]
  · have h1 : ¬ bs "/signalk/v1/api/" <+: bs "/apps/" ++ rest := by
      rw [ba, ← List.isPrefixOf_iff_prefix,
        show bs "/signalk/v1/api/" = [47, 115, 105, 103, 110, 97, 108, 107, 47, 118, 49, 47, 97, 112, 105, 47] by decide +kernel]
      simp [List.isPrefixOf]
    have h2 : ¬ bs "/signalk/v1/" <+: bs "/apps/" ++ rest := by
      rw [ba, ← List.isPrefixOf_iff_prefix,
        show bs "/signalk/v1/" = [47, 115, 105, 103, 110, 97, 108, 107, 47, 118, 49, 47] by decide +kernel]
      simp [List.isPrefixOf]
    have h3 : bs "/apps/" ++ rest ≠ bs "/ws/stats" := by
      rw [ba, show bs "/ws/stats" = [47, 119, 115, 47, 115, 116, 97, 116, 115] by decide +kernel]; simp
    have h4 : bs "/" <+: bs "/apps/" ++ rest := by
      rw [ba, ← List.isPrefixOf_iff_prefix, show bs "/" = [47] by decide +kernel]; simp [List.isPrefixOf]
    rw [if_neg h1, if_neg h2, if_neg h3, if_pos h4]
  · refine ⟨?_, by rw [ba]; simp, ?_⟩
    · rw [ba, show bs "/signalk/v1/api" = [47, 115, 105, 103, 110, 97, 108, 107, 47, 118, 49, 47, 97, 112, 105] by decide +kernel]
      simp
    · rw [ba, show bs "/signalk/v1" = [47, 115, 105, 103, 110, 97, 108, 107, 47, 118, 49] by decide +kernel]
      simp

/-- C86: paths below /apps/.  With the webapps `apps` found at the start and the routes `added` since, a
file of node_modules is served exactly if the rest of the path begins with the name of an app, or, the
installation page excepted, the path begins with an added route; the installation handler answers exactly
on /apps/install when no app name is a prefix of "install"; everything else is a 404. -/
theorem C86_apps {clean : Str → Str} {regs : List (Str × Target)} (h : AllRegistered regs)
    (apps added : List Str) (rest : Str) (hc : clean (bs "/apps/" ++ rest) = bs "/apps/" ++ rest) :
    let answer := serve clean true regs apps added (bs "/apps/" ++ rest)
    let byName := ∃ k ∈ apps, k <+: rest
    let byRoute := ∃ p ∈ added, p <+: bs "/apps/" ++ rest
    (answer = some (.appFile rest) ↔ byName ∨ (rest ≠ bs "install" ∧ byRoute)) ∧
    (answer = some .appInstall ↔ rest = bs "install" ∧ ¬ byName) ∧
    (¬ byName → ¬ byRoute → rest ≠ bs "install" → answer = some .notFound) := by
  simp only [serve_apps h apps added rest hc, mux_ui_apps, Option.some.injEq]
  by_cases h1 : ∃ k ∈ apps, k <+: rest
  · simp [h1]
  · by_cases h2 : rest = bs "install"
    · simp [h2]
    · by_cases h3 : ∃ p ∈ added, p <+: bs "/apps/" ++ rest
      · simp [h1, h2, h3]
      · simp only [h1, h2, h3, if_false, reduceCtorEq]; simp

/-- C86 is false for the installation page: once a webapp whose name is a prefix of "install" (such as
"in") is installed and the server restarted, /apps/install is answered by the file server, and no further
app can be installed. -/
theorem C86_install_shadowed_false {clean : Str → Str} {regs : List (Str × Target)} (h : AllRegistered regs)
    (hc : clean (bs "/apps/" ++ bs "install") = bs "/apps/" ++ bs "install") :
    ∃ name : Str, name ≠ [] ∧ ∀ (apps added : List Str), name ∈ apps →
      serve clean true regs apps added (bs "/apps/" ++ bs "install") = some (.appFile (bs "install")) :=
  ⟨bs "in", by decide +kernel, fun apps added hm =>
    ((C86_apps h apps added _ hc).1).2 (Or.inl ⟨_, hm, by decide +kernel⟩)⟩

/-- C86 is false in that only webapps are served: with the webapp "chart", every path of node_modules that
begins with these letters is served, such as the package "chart-secrets" that is no webapp. -/
theorem C86_exposed_false {clean : Str → Str} {regs : List (Str × Target)} (h : AllRegistered regs)
    (hc : clean (bs "/apps/" ++ bs "chart-secrets/package.json") = bs "/apps/" ++ bs "chart-secrets/package.json") :
    serve clean true regs [bs "chart"] [] (bs "/apps/" ++ bs "chart-secrets/package.json")
      = some (.appFile (bs "chart-secrets/package.json")) :=
  ((C86_apps h [bs "chart"] [] _ hc).1).2 (Or.inl ⟨bs "chart", by simp, by decide +kernel⟩)

/-- C86: after a successful installation the URL reported is served from the package's directory, unless
it is /apps/install itself.  `join` is `filepath.Join`; the hypotheses on it hold for a clean name. -/
theorem C86_installed_url {clean : Str → Str} {regs : List (Str × Target)} (h : AllRegistered regs)
    (join : Str → Str → Str) (hasIndex : Bool) (pkg : Str)
    (hj1 : join (bs "/apps") pkg = bs "/apps/" ++ pkg)
    (hj2 : join (bs "/apps/" ++ pkg) (bs "public") = bs "/apps/" ++ (pkg ++ bs "/public"))
    (apps added : List Str) (ha : pathForPackage join hasIndex pkg ∈ added) (sub : Str)
    (hc : clean (pathForPackage join hasIndex pkg ++ sub) = pathForPackage join hasIndex pkg ++ sub)
    (hn : pathForPackage join hasIndex pkg ++ sub ≠ bs "/apps/install") :
    serve clean true regs apps added (pathForPackage join hasIndex pkg ++ sub)
      = some (.appFile (pkg ++ (if hasIndex then [] else bs "/public") ++ sub)) := by
  have hp : pathForPackage join hasIndex pkg = bs "/apps/" ++ (pkg ++ (if hasIndex then [] else bs "/public")) := by
    unfold pathForPackage
    cases hasIndex <;> simp [hj1, hj2]
  have happ : pathForPackage join hasIndex pkg ++ sub
      = bs "/apps/" ++ (pkg ++ (if hasIndex then [] else bs "/public") ++ sub) := by
    rw [hp]; simp
  rw [happ] at hc hn ⊢
  refine ((C86_apps h apps added _ hc).1).2 (Or.inr ⟨?_, _, ha, ?_⟩)
  · intro e
    apply hn
    rw [e]; decide +kernel
  · rw [← happ]; exact List.prefix_append _ _

/-- C86: the link the page shows for an installed app leads to its files if the app's directory is named
after the package and it does not set its own location. -/
theorem C86_link_partial {clean : Str → Str} {regs : List (Str × Target)} (h : AllRegistered regs)
    (join : Str → Str → Str) (p : Packages.Pkg) (sub : Packages.Dir) (apps added : List Str)
    (hk : p.name ∈ apps) (hl : p.location = [])
    (hj : join (47 :: p.name) (bs "/public") = 47 :: p.name ++ bs "/public")
    (hc : let link := appLink { p with location := Packages.location join p sub }; clean link = link) :
    serve clean true regs apps added (appLink { p with location := Packages.location join p sub })
      = some (.appFile (p.name ++ if sub.has Packages.indexHtml then [] else bs "/public")) := by
  have e : appLink { p with location := Packages.location join p sub }
      = bs "/apps/" ++ (p.name ++ if sub.has Packages.indexHtml then [] else bs "/public") := by
    have ba : bs "/apps/" = bs "/apps" ++ [47] := by decide +kernel
    simp only [appLink, Packages.location, hl, if_true, Packages.slash, hj, ba]
    split <;> simp
  simp only [e] at hc ⊢
  exact ((C86_apps h apps added _ hc).1).2 (Or.inl ⟨_, hk, List.prefix_append _ _⟩)

/-- C86 is false for links in general: an app in the directory "foo" whose package.json says "bar" gets a
link that nothing serves. -/
theorem C86_link_false {clean : Str → Str} {regs : List (Str × Target)} (h : AllRegistered regs)
    (hc : clean (bs "/apps/" ++ bs "bar") = bs "/apps/" ++ bs "bar") :
    serve clean true regs [bs "foo"] [] (appLink ⟨[], bs "bar", [], bs "/bar", []⟩) = some .notFound := by
  have e : appLink ⟨[], bs "bar", [], bs "/bar", []⟩ = bs "/apps/" ++ bs "bar" := by decide +kernel
  rw [e]
  refine (C86_apps h [bs "foo"] [] (bs "bar") hc).2.2 ?_ (by simp) (by decide +kernel)
  rintro ⟨k, hk, hp⟩
  rw [List.mem_singleton.1 hk] at hp
  revert hp; decide +kernel

/-! ### Fixed pages -/

/-- A path no app route matches. -/
theorem mux_skip_apps (apps : List Str) (more : List (Pat × (Str → Str → Handler))) (path : Str)
    (hp : ¬ bs "/apps/" <+: path) :
    muxServe (apps.map (fun k => appRoute (bs "/apps/" ++ k)) ++ more) path = muxServe more path := by
  induction apps with
  | nil => rfl
  | cons a apps ih =>
    have : (bs "/apps/" ++ a).isPrefixOf path = false := by
      cases hb : (bs "/apps/" ++ a).isPrefixOf path with
      | false => rfl
      | true => exact absurd ((List.prefix_append _ _).trans (List.isPrefixOf_iff_prefix.1 hb)) hp
    simp only [List.map_cons, List.cons_append, muxServe, appRoute, Pat.matches, this, Bool.false_eq_true,
      if_false]
    exact ih

/-- C86: the pages.  Whatever apps are installed, /, /admin, /admin/uuid, /apps and everything below
/assets/ reach their handlers. -/
theorem C86_pages {clean : Str → Str} {regs : List (Str × Target)} (h : AllRegistered regs)
    (hc : ∀ path ∈ [bs "/", bs "/admin", bs "/admin/uuid", bs "/apps"], clean path = path)
    (apps added : List Str) :
    serve clean true regs apps added (bs "/") = some .index ∧
    serve clean true regs apps added (bs "/admin") = some .admin ∧
    serve clean true regs apps added (bs "/admin/uuid") = some .uuid ∧
    serve clean true regs apps added (bs "/apps") = some .apps ∧
    ∀ file, clean (bs "/assets/" ++ file) = bs "/assets/" ++ file →
      serve clean true regs apps added (bs "/assets/" ++ file) = some (.asset file) := by
  have go : ∀ path : Str, clean path = path → path ≠ bs "/signalk/v1/api" ∧ path ≠ [] ∧ path ≠ bs "/signalk/v1" →
      ¬ bs "/signalk/v1/api/" <+: path → ¬ bs "/signalk/v1/" <+: path → path ≠ bs "/ws/stats" →
      bs "/" <+: path → ¬ bs "/apps/" <+: path →
      serve clean true regs apps added path = some (muxServe
        ([(.pre (bs "/assets/"), fun path _ => stripped (bs "/assets/") .asset path),
          (.exact (bs "/admin/uuid"), fun _ _ => .uuid), (.exact (bs "/admin"), fun _ _ => .admin),
          (.exact (bs "/apps/install"), fun _ _ => .appInstall), (.exact (bs "/apps"), fun _ _ => .apps),
          (.exact (bs "/"), fun _ _ => .index)] ++ added.map appRoute) path) := by
    intro path hcp h1 h2 h3 h4 h5 h6
    rw [serve_full h apps added hcp h1, if_neg h2, if_neg h3, if_neg h4, if_pos h5, uiRoutes,
      List.append_assoc, mux_skip_apps _ _ _ h6]
  refine ⟨?_, ?_, ?_, ?_, ?_⟩
  · rw [go _ (hc _ (by simp)) (by decide +kernel) (by decide +kernel) (by decide +kernel) (by decide +kernel) (by decide +kernel)
      (by decide +kernel)]
    simp only [List.cons_append, muxServe, Pat.matches,
      show (bs "/assets/").isPrefixOf (bs "/") = false by decide +kernel,
      show bs "/" ≠ bs "/admin/uuid" by decide +kernel, show bs "/" ≠ bs "/admin" by decide +kernel,
      show bs "/" ≠ bs "/apps/install" by decide +kernel, show bs "/" ≠ bs "/apps" by decide +kernel,
      Bool.false_eq_true, if_false, if_true]
  · rw [go _ (hc _ (by simp)) (by decide +kernel) (by decide +kernel) (by decide +kernel) (by decide +kernel) (by decide +kernel)
      (by decide +kernel)]
    simp only [List.cons_append, muxServe, Pat.matches,
      show (bs "/assets/").isPrefixOf (bs "/admin") = false by decide +kernel,
      show bs "/admin" ≠ bs "/admin/uuid" by decide +kernel,
      Bool.false_eq_true, if_false, if_true]
  · rw [go _ (hc _ (by simp)) (by decide +kernel) (by decide +kernel) (by decide +kernel) (by decide +kernel) (by decide +kernel)
      (by decide +kernel)]
    simp only [List.cons_append, muxServe, Pat.matches,
      show (bs "/assets/").isPrefixOf (bs "/admin/uuid") = false by decide +kernel,
      Bool.false_eq_true, if_false, if_true]
  · rw [go _ (hc _ (by simp)) (by decide +kernel) (by decide +kernel) (by decide +kernel) (by decide +kernel) (by decide +kernel)
      (by decide +kernel)]
    simp only [List.cons_append, muxServe, Pat.matches,
      show (bs "/assets/").isPrefixOf (bs "/apps") = false by decide +kernel,
      show bs "/apps" ≠ bs "/admin/uuid" by decide +kernel, show bs "/apps" ≠ bs "/admin" by decide +kernel,
      show bs "/apps" ≠ bs "/apps/install" by decide +kernel,
      Bool.false_eq_true, if_false, if_true]
  · intro file hcf
    have ba : bs "/assets/" = [47, 97, 115, 115, 101, 116, 115, 47] := by decide +kernel
    rw [go _ hcf]
    · have hp : (bs "/assets/").isPrefixOf (bs "/assets/" ++ file) = true :=
        List.isPrefixOf_iff_prefix.2 (List.prefix_append _ _)
      simp only [List.cons_append, muxServe, Pat.matches, hp, if_true, stripped, List.drop_left]
    · refine ⟨?_, by rw [ba]; simp, ?_⟩
      · rw [ba, show bs "/signalk/v1/api" = [47, 115, 105, 103, 110, 97, 108, 107, 47, 118, 49, 47, 97, 112, 105] by decide +kernel]
        simp
      · rw [ba, show bs "/signalk/v1" = [47, 115, 105, 103, 110, 97, 108, 107, 47, 118, 49] by decide +kernel]
        simp
    · rw [ba, ← List.isPrefixOf_iff_prefix,
        show bs "/signalk/v1/api/" = [47, 115, 105, 103, 110, 97, 108, 107, 47, 118, 49, 47, 97, 112, 105, 47] by decide +kernel]
      simp [List.isPrefixOf]
    · rw [ba, ← List.isPrefixOf_iff_prefix,
        show bs "/signalk/v1/" = [47, 115, 105, 103, 110, 97, 108, 107, 47, 118, 49, 47] by decide +kernel]
      simp [List.isPrefixOf]
    · rw [ba, show bs "/ws/stats" = [47, 119, 115, 47, 115, 116, 97, 116, 115] by decide +kernel]; simp
    · rw [ba, ← List.isPrefixOf_iff_prefix, show bs "/" = [47] by decide +kernel]; simp [List.isPrefixOf]
    · rw [ba, ← List.isPrefixOf_iff_prefix, show bs "/apps/" = [47, 97, 112, 112, 115, 47] by decide +kernel]
      simp [List.isPrefixOf]

/-! ### The links of the message index -/

/-- C86 is false for the links of the message index: whatever apps are installed (routes added since the
start being below /apps/), the address in `@Details` of every entry is a 404. -/
theorem C86_details_false {clean : Str → Str} {regs : List (Str × Target)} (h : AllRegistered regs)
    (apps added : List Str) (ha : ∀ p ∈ added, bs "/apps/" <+: p)
    (tbl : List Nmea2k.Pgn) (i : Nat) (e : Main.IndexEntry) (he : Main.getPGNSummary tbl i = .ok e)
    (hc : clean e.details = e.details) :
    serve clean true regs apps added e.details = some .notFound := by
  have hd : e.details = bs "/api/v1/messages/" ++ Main.decimal i := by
    unfold Main.getPGNSummary at he
    split at he
    · cases he
    · injection he with he; rw [← he]
  have bm : bs "/api/v1/messages/" = [47, 97, 112, 105, 47, 118, 49, 47, 109, 101, 115, 115, 97, 103, 101, 115, 47] := by
    decide +kernel
  have na : ¬ bs "/apps/" <+: bs "/api/v1/messages/" ++ Main.decimal i := by
    rw [bm, ← List.isPrefixOf_iff_prefix, show bs "/apps/" = [47, 97, 112, 112, 115, 47] by decide +kernel]
    simp [List.isPrefixOf]
  rw [hd] at hc ⊢
  rw [serve_full h apps added hc]
  · have h1 : ¬ bs "/signalk/v1/api/" <+: bs "/api/v1/messages/" ++ Main.decimal i := by
      rw [bm, ← List.isPrefixOf_iff_prefix,
        show bs "/signalk/v1/api/" = [47, 115, 105, 103, 110, 97, 108, 107, 47, 118, 49, 47, 97, 112, 105, 47] by decide +kernel]
      simp [List.isPrefixOf]
    have h2 : ¬ bs "/signalk/v1/" <+: bs "/api/v1/messages/" ++ Main.decimal i := by
      rw [bm, ← List.isPrefixOf_iff_prefix,
        show bs "/signalk/v1/" = [47, 115, 105, 103, 110, 97, 108, 107, 47, 118, 49, 47] by decide +kernel]
      simp [List.isPrefixOf]
    have h3 : bs "/api/v1/messages/" ++ Main.decimal i ≠ bs "/ws/stats" := by
      rw [bm, show bs "/ws/stats" = [47, 119, 115, 47, 115, 116, 97, 116, 115] by decide +kernel]; simp
    have h4 : bs "/" <+: bs "/api/v1/messages/" ++ Main.decimal i := by
      rw [bm, ← List.isPrefixOf_iff_prefix, show bs "/" = [47] by decide +kernel]; simp [List.isPrefixOf]
    rw [if_neg h1, if_neg h2, if_neg h3, if_pos h4, uiRoutes, List.append_assoc, mux_skip_apps _ _ _ na]
    have g1 : (bs "/assets/").isPrefixOf (bs "/api/v1/messages/" ++ Main.decimal i) = false := by
      rw [bm, show bs "/assets/" = [47, 97, 115, 115, 101, 116, 115, 47] by decide +kernel]; rfl
    have g2 : bs "/api/v1/messages/" ++ Main.decimal i ≠ bs "/admin/uuid" := by
      rw [bm, show bs "/admin/uuid" = [47, 97, 100, 109, 105, 110, 47, 117, 117, 105, 100] by decide +kernel]; simp
    have g3 : bs "/api/v1/messages/" ++ Main.decimal i ≠ bs "/admin" := by
      rw [bm, show bs "/admin" = [47, 97, 100, 109, 105, 110] by decide +kernel]; simp
    have g4 : bs "/api/v1/messages/" ++ Main.decimal i ≠ bs "/apps/install" := by
      intro e; exact na (e ▸ by decide +kernel)
    have g5 : bs "/api/v1/messages/" ++ Main.decimal i ≠ bs "/apps" := by
      rw [bm, show bs "/apps" = [47, 97, 112, 112, 115] by decide +kernel]; simp
    have g6 : bs "/api/v1/messages/" ++ Main.decimal i ≠ bs "/" := by
      rw [bm, show bs "/" = [47] by decide +kernel]; simp
    simp only [List.cons_append, List.nil_append, muxServe, Pat.matches, g1, g2, g3, g4, g5, g6,
      Bool.false_eq_true, if_false]
    congr 1
    induction added with
    | nil => rfl
    | cons a added ih =>
      have : a.isPrefixOf (bs "/api/v1/messages/" ++ Main.decimal i) = false := by
        cases hb : a.isPrefixOf (bs "/api/v1/messages/" ++ Main.decimal i) with
        | false => rfl
        | true => exact absurd ((ha a (by simp)).trans (List.isPrefixOf_iff_prefix.1 hb)) na
      simp only [List.map_cons, muxServe, appRoute, Pat.matches, this, Bool.false_eq_true, if_false]
      exact ih (fun p hp => ha p (by simp [hp]))
  · refine ⟨?_, by rw [bm]; simp, ?_⟩
    · rw [bm, show bs "/signalk/v1/api" = [47, 115, 105, 103, 110, 97, 108, 107, 47, 118, 49, 47, 97, 112, 105] by decide +kernel]
      simp
    · rw [bm, show bs "/signalk/v1" = [47, 115, 105, 103, 110, 97, 108, 107, 47, 118, 49] by decide +kernel]
      simp

/-- C86: the details of entry `i` of the message index are at /signalk/v1/api/messages/i. -/
theorem C86_details_partial {clean : Str → Str} {regs : List (Str × Target)} (h : AllRegistered regs)
    (apps added : List Str) (tbl : List Nmea2k.Pgn)
    (hlen : tbl.length ≤ 2 ^ 31) (i : Nat) (d : Nmea2k.Pgn) (hd : tbl[i]? = some d)
    (hc : clean (bs "/signalk/v1/api/messages/" ++ Main.decimal i) = bs "/signalk/v1/api/messages/" ++ Main.decimal i) :
    ∃ key, serve clean true regs apps added (bs "/signalk/v1/api/messages/" ++ Main.decimal i)
        = some (.apiDetails key) ∧ Main.messageDetails tbl key = .ok (d, false) := by
  refine ⟨Main.decimal i, ?_, (Main.C71_link hlen hd).2⟩
  have e : bs "/signalk/v1/api/messages/" ++ Main.decimal i
      = bs "/signalk/v1/api/" ++ (bs "messages/" ++ Main.decimal i) := by
    rw [← List.append_assoc]; congr 1
  rw [e] at hc ⊢
  refine (C86_api h apps added _ hc).2.2.1 _ rfl (Main.decimal_ne_nil i) ?_
  intro hm
  have := (Main.decimal_chars i 47 hm).1
  revert this; decide

/-! ### Startup -/

/-- C86 is false during startup: the server listens as soon as `WebSocketServer` has registered its own
handlers; until the API goroutine has run, API requests are taken for WebSocket requests. -/
theorem C86_startup_false (clean : Str → Str)
    (hc : clean (bs "/signalk/v1/api/messages") = bs "/signalk/v1/api/messages") :
    serve clean true [regWs, regStats] [] [] (bs "/signalk/v1/api/messages") = some .ws := by
  simp only [serve, hc]
  decide +kernel

/-- The remaining hypotheses: an index entry of a one-entry table and its (clean) link. -/
example : ∃ e, Main.getPGNSummary [⟨"Heading", "", 127250, true, 8, 0, []⟩] 0 = .ok e ∧
    serve id true [regUi, regWs, regStats, regApi] [bs "chart"] [] e.details = some .notFound :=
  ⟨_, rfl, by decide +kernel⟩

/-- Hypotheses met: the registrations in the order UI, WebSockets, API. -/
example : AllRegistered [regUi, regWs, regStats, regApi] := by
  unfold AllRegistered; decide +kernel

example : serve id true [regUi, regWs, regStats, regApi] [bs "chart"] [] (bs "/signalk/v1/api/messages/12.xml")
    = some (.apiDetails (bs "12.xml")) := by decide +kernel

example : serve id true [regUi, regWs, regStats, regApi] [bs "chart"] [] (bs "/apps/install")
    = some .appInstall := by decide +kernel

end Argo.Routes
