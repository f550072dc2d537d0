import Verif.Path
import Verif.Routes.Apps

set_option autoImplicit false

/-!
# C112: which files requests reach

The routers with the path cleaning of the library (`Path.routerClean`), and the file servers behind them.
-/

namespace Argo.Routes

open Argo
open Argo.Signalk (bs)
open Argo.Path (Good CleanForm routerClean elems unelems)

/-- The file `http.FileServer(http.Dir(dir))` opens for the path it is given (ui_server.go:166, 168, 191-192, 199;
library code from its documentation): the path is cleaned as one from the root, by the server and again by
`http.Dir`, and joined to the directory. -/
def fileOf (dir rest : Str) : Str :=
  Path.join [if dir = [] then Path.dot else dir,
    Path.clean (47 :: Path.clean (if Path.rooted rest then rest else 47 :: rest))]

/-! ## Specification -/

/-- The file named by the good names `es` below the directory `dir`. -/
def below (dir : Str) (es : List Str) : Str :=
  if es = [] then dir
  else if dir = bs "/" then bs "/" ++ unelems es
  else if dir = bs "." then unelems es
  else dir ++ bs "/" ++ unelems es

/-- The elements `path.Clean` keeps. -/
def Kept (e : Str) : Prop := e ≠ [] ∧ e ≠ Path.dot ∧ (47 : UInt8) ∉ e

theorem push_kept (r : Bool) (kept : List Str) (hk : ∀ e ∈ kept, Kept e) (e : Str) (he : (47 : UInt8) ∉ e) :
    ∀ x ∈ Path.push r kept e, Kept x := by
  have hdd : Kept Path.dotdot := ⟨by decide, by decide, by decide⟩
  unfold Path.push
  split
  · exact hk
  · rename_i h1
    simp only [not_or] at h1
    split
    · cases kept with
      | nil => cases r <;> simp [hdd]
      | cons t ts =>
        simp only
        split
        · intro x hx
          rcases List.mem_cons.1 hx with rfl | hx
          · exact hdd
          · exact hk x hx
        · exact fun x hx => hk x (by simp [hx])
    · intro x hx
      rcases List.mem_cons.1 hx with rfl | hx
      · exact ⟨h1.1, h1.2, he⟩
      · exact hk x hx

theorem fold_kept (r : Bool) (es : List Str) (hes : ∀ e ∈ es, (47 : UInt8) ∉ e) (kept : List Str)
    (hk : ∀ e ∈ kept, Kept e) : ∀ x ∈ es.foldl (Path.push r) kept, Kept x := by
  induction es generalizing kept with
  | nil => exact hk
  | cons e es ih =>
    exact ih (fun x hx => hes x (by simp [hx])) _ (push_kept r kept hk e (hes e (by simp)))

theorem unelems_first (e : Str) (es : List Str) (h : Kept e) : ∃ c cs, unelems (e :: es) = c :: cs ∧ c ≠ 47 := by
  obtain ⟨c, cs, rfl⟩ : ∃ c cs, e = c :: cs := by
    cases e with
    | nil => exact absurd rfl h.1
    | cons c cs => exact ⟨c, cs, rfl⟩
  have hc : c ≠ 47 := fun e => h.2.2 (by simp [e])
  cases es with
  | nil => exact ⟨c, cs, rfl, hc⟩
  | cons f es => exact ⟨c, cs ++ 47 :: unelems (f :: es), rfl, hc⟩

theorem unelems_ne_dot (e : Str) (es : List Str) (h : Kept e) : unelems (e :: es) ≠ Path.dot := by
  cases es with
  | nil => exact h.2.1
  | cons f es =>
    rw [Path.unelems_cons _ _ (by simp)]
    intro he
    have := congrArg List.length he
    have h1 : e ≠ [] := h.1
    cases e with
    | nil => exact h1 rfl
    | cons c cs => simp [Path.dot] at this

/-- Joining a path that stands for good names to a directory. -/
theorem join_general (dir q : Str) (hd : dir ≠ []) (es : List Str)
    (hq : ∀ r K, (elems q).foldl (Path.push r) K = es.reverse ++ K) :
    Path.join [dir, q] = below (Path.clean dir) es := by
  have b1 : bs "/" = [47] := by decide +kernel
  have b2 : bs "." = Path.dot := by decide +kernel
  have hj : Path.join [dir, q] = Path.clean (dir ++ 47 :: q) := by
    unfold Path.join
    rw [List.dropWhile_cons_of_neg (by simpa using hd)]
    rfl
  have hr : Path.rooted (dir ++ 47 :: q) = Path.rooted dir := by
    cases dir with
    | nil => exact absurd rfl hd
    | cons c cs => rfl
  obtain ⟨K, hK⟩ : ∃ K, (elems dir).foldl (Path.push (Path.rooted dir)) [] = K := ⟨_, rfl⟩
  have hkept : ∀ x ∈ K, Kept x := hK ▸ fold_kept _ (elems dir) (Path.elems_noSlash dir) [] (by simp)
  have hfold : (elems (dir ++ 47 :: q)).foldl (Path.push (Path.rooted dir)) [] = es.reverse ++ K := by
    rw [Path.elems_append, List.foldl_append, hK, hq]
  rw [hj]
  unfold Path.clean
  simp only [hr, hfold, hK, List.reverse_append, List.reverse_reverse]
  unfold below
  cases es with
  | nil => simp
  | cons f es =>
    rw [if_neg (by simp : f :: es ≠ [])]
    cases hrd : Path.rooted dir with
    | true =>
      simp only [if_true]
      cases hk : K.reverse with
      | nil => simp [b1, Path.unelems]
      | cons k ks =>
        have hkk : Kept k := hkept k (List.mem_reverse.1 (by rw [hk]; simp))
        obtain ⟨c, cs, hc, hc47⟩ := unelems_first k ks hkk
        rw [if_neg (by rw [b1, hc]; simp), if_neg (by rw [b2]; simp [Path.dot]),
          Path.unelems_append _ _ (by simp) (by simp), b1]
        simp
    | false =>
      simp only [Bool.false_eq_true, if_false]
      rw [if_neg (by simp)]
      cases hk : K.reverse with
      | nil =>
        have hk0 : K = [] := by simpa using hk
        simp only [hk0, if_true, b2, b1, show Path.dot ≠ [47] by decide, if_false, List.nil_append]
      | cons k ks =>
        have hkk : Kept k := hkept k (List.mem_reverse.1 (by rw [hk]; simp))
        obtain ⟨c, cs, hc, hc47⟩ := unelems_first k ks hkk
        have hk0 : K ≠ [] := by intro h; rw [h] at hk; simp at hk
        simp only [hk0, if_false]
        rw [if_neg (by rw [b1, hc]; intro h; injection h with h; exact hc47 h),
          if_neg (by rw [b2]; exact unelems_ne_dot k ks hkk), Path.unelems_append _ _ (by simp) (by simp), b1]
        simp

theorem fold_elems (es : List Str) (hes : ∀ e ∈ es, Good e) (r : Bool) (K : List Str) :
    (elems (unelems es)).foldl (Path.push r) K = es.reverse ++ K := by
  cases es with
  | nil => simp [Path.unelems, Path.elems, Path.push]
  | cons e es => rw [Path.elems_unelems _ (by simp) (fun x hx => (hes x hx).2.2.2), Path.fold_good _ _ _ hes]

/-- Joining good names from the root to a directory. -/
theorem join_below (dir : Str) (hd : dir ≠ []) (es : List Str) (hes : ∀ e ∈ es, Good e) :
    Path.join [dir, 47 :: unelems es] = below (Path.clean dir) es := by
  refine join_general dir _ hd es (fun r K => ?_)
  rw [Path.elems_slash, List.foldl_cons, show Path.push r K [] = K by simp [Path.push], fold_elems es hes]

/-- Joining good names to a directory. -/
theorem join_names (dir : Str) (hd : dir ≠ []) (es : List Str) (hes : ∀ e ∈ es, Good e) :
    Path.join [dir, unelems es] = below (Path.clean dir) es :=
  join_general dir _ hd es (fun r K => fold_elems es hes r K)

/-- What the file server opens for a clean path. -/
theorem fileOf_good (dir : Str) (es : List Str) (hes : ∀ e ∈ es, Good e) (slash : Bool) :
    fileOf dir (unelems es ++ if slash then [47] else []) = below (Path.clean (if dir = [] then bs "." else dir)) es := by
  have b2 : bs "." = Path.dot := by decide +kernel
  have hd : (if dir = [] then Path.dot else dir) ≠ [] := by
    split
    · decide
    · assumption
  have hclean : Path.clean (if Path.rooted (unelems es ++ if slash then [47] else []) then
      (unelems es ++ if slash then [47] else []) else 47 :: (unelems es ++ if slash then [47] else []))
      = 47 :: unelems es := by
    cases es with
    | nil => cases slash <;> decide
    | cons e es =>
      have hk : Kept e := ⟨(hes e (by simp)).1, (hes e (by simp)).2.1, (hes e (by simp)).2.2.2⟩
      obtain ⟨c, cs, hc, hc47⟩ := unelems_first e es hk
      have hr : ∀ t : Str, Path.rooted (unelems (e :: es) ++ t) = false := by
        intro t; rw [hc]; simp [Path.rooted, hc47]
      rw [hr]
      cases slash with
      | true =>
        simp only [if_true, Bool.false_eq_true, if_false]
        exact Path.clean_good_slash (e :: es) (by simp) hes
      | false => simpa using Path.clean_good (e :: es) hes
  unfold fileOf
  rw [hclean]
  have hc2 : Path.clean (47 :: 47 :: unelems es) = 47 :: unelems es := by
    have hr : Path.rooted (47 :: 47 :: unelems es) = true := rfl
    have := Path.clean_good es hes
    have hr' : Path.rooted (47 :: unelems es) = true := rfl
    simp only [Path.clean, hr', if_true] at this
    simp only [Path.clean, hr, if_true]
    rw [Path.elems_slash, List.foldl_cons]
    exact this
  rw [hc2, join_below _ hd es hes, b2]

/-- The rest of a clean path below a directory of the server. -/
theorem rest_good (d rest : Str) (hd : (47 : UInt8) ∉ d) (h : CleanForm (47 :: d ++ 47 :: rest)) :
    ∃ (es : List Str) (slash : Bool), (∀ e ∈ es, Good e) ∧ rest = unelems es ++ if slash then [47] else [] := by
  have he : elems (47 :: d ++ 47 :: rest) = [] :: d :: elems rest := by
    rw [List.cons_append, Path.elems_slash, Path.elems_append, Path.elems_plain d hd]; rfl
  rcases h with h | ⟨es, hne, hes, h | h⟩
  · simp at h
  · rw [h, Path.elems_slash, Path.elems_unelems es hne (fun x hx => (hes x hx).2.2.2)] at he
    injection he with _ he
    refine ⟨elems rest, false, fun e hm => hes e (by rw [he]; simp [hm]), ?_⟩
    simp [Path.unelems_elems]
  · rw [h, List.cons_append, Path.elems_slash, Path.elems_unelems_slash es hne (fun x hx => (hes x hx).2.2.2)] at he
    injection he with _ he
    cases es with
    | nil => exact absurd rfl hne
    | cons f es =>
      rw [List.cons_append] at he
      injection he with hf he
      have hr : rest = unelems (es ++ [[]]) := by rw [he, Path.unelems_elems]
      cases es with
      | nil => exact ⟨[], false, by simp, by rw [hr]; rfl⟩
      | cons g es =>
        refine ⟨g :: es, true, fun e hm => hes e (by simp [List.mem_cons.1 hm]), ?_⟩
        rw [hr, Path.unelems_append _ _ (by simp) (by simp)]
        rfl

theorem mux_mem (rs : List (Pat × (Str → Str → Handler))) (path : Str) :
    muxServe rs path = .notFound ∨ ∃ r ∈ rs, ∃ key, r.2 path key = muxServe rs path := by
  induction rs with
  | nil => exact Or.inl rfl
  | cons r rs ih =>
    obtain ⟨p, f⟩ := r
    unfold muxServe
    cases hm : p.matches path with
    | some key => exact Or.inr ⟨(p, f), by simp, key, rfl⟩
    | none =>
      rcases ih with h | ⟨r, hr, key, h⟩
      · exact Or.inl h
      · exact Or.inr ⟨r, by simp [hr], key, h⟩

theorem stripped_eq {p : Str} {f : Str → Handler} {path : Str} {hd : Handler} (h : stripped p f path = hd)
    (hn : hd ≠ .notFound) : ∃ rest, path = p ++ rest ∧ f rest = hd := by
  unfold stripped at h
  split at h
  · rename_i hp
    obtain ⟨t, rfl⟩ := List.isPrefixOf_iff_prefix.1 hp
    exact ⟨t, rfl, by rw [← h, List.drop_left]⟩
  · exact absurd h.symm hn

/-- Which of the routes of the pages hands over to a file server. -/
theorem ui_file (apps added : List Str) (path rest : Str) :
    (muxServe (uiRoutes apps added) path = .appFile rest → path = bs "/apps/" ++ rest) ∧
    (muxServe (uiRoutes apps added) path = .asset rest → path = bs "/assets/" ++ rest) := by
  constructor
  all_goals
    intro h
    rcases mux_mem (uiRoutes apps added) path with h' | ⟨r, hr, key, h'⟩
    · rw [h] at h'; cases h'
    · rw [h] at h'
      simp only [uiRoutes, List.mem_append, List.mem_map, List.mem_cons, List.not_mem_nil, or_false] at hr
      rcases hr with (⟨k, _, rfl⟩ | rfl | rfl | rfl | rfl | rfl | rfl) | ⟨k, _, rfl⟩
      · obtain ⟨t, ht, hh⟩ := stripped_eq h' (by simp); cases hh <;> exact ht
      · obtain ⟨t, ht, hh⟩ := stripped_eq h' (by simp); cases hh <;> exact ht
      · cases h'
      · cases h'
      · cases h'
      · cases h'
      · cases h'
      · obtain ⟨t, ht, hh⟩ := stripped_eq h' (by simp); cases hh <;> exact ht

theorem api_file (path rest : Str) : muxServe apiRoutes path ≠ .appFile rest ∧ muxServe apiRoutes path ≠ .asset rest ∧
    ∀ dest, muxServe apiRoutes path ≠ .redirect dest := by
  rcases mux_mem apiRoutes path with h' | ⟨r, hr, key, h'⟩
  · rw [h']; simp
  · rw [← h']
    simp only [apiRoutes, List.mem_cons, List.not_mem_nil, or_false] at hr
    rcases hr with rfl | rfl | rfl | rfl | rfl <;> simp

theorem ui_redirect (apps added : List Str) (path dest : Str) : muxServe (uiRoutes apps added) path ≠ .redirect dest := by
  intro h
  rcases mux_mem (uiRoutes apps added) path with h' | ⟨r, hr, key, h'⟩
  · rw [h] at h'; cases h'
  · rw [h] at h'
    simp only [uiRoutes, List.mem_append, List.mem_map, List.mem_cons, List.not_mem_nil, or_false] at hr
    rcases hr with (⟨k, _, rfl⟩ | rfl | rfl | rfl | rfl | rfl | rfl) | ⟨k, _, rfl⟩
    · obtain ⟨t, ht, hh⟩ := stripped_eq h' (by simp); cases hh
    · obtain ⟨t, ht, hh⟩ := stripped_eq h' (by simp); cases hh
    · cases h'
    · cases h'
    · cases h'
    · cases h'
    · cases h'
    · obtain ⟨t, ht, hh⟩ := stripped_eq h' (by simp); cases hh

theorem serve_file {clean : Str → Str} {regs : List (Str × Target)} {apps added : List Str} {path rest : Str} :
    (serve clean true regs apps added path = some (.appFile rest) → clean path = path ∧ path = bs "/apps/" ++ rest) ∧
    (serve clean true regs apps added path = some (.asset rest) → clean path = path ∧ path = bs "/assets/" ++ rest) := by
  unfold serve
  simp only [Bool.not_true, Bool.false_eq_true, if_false, ne_eq, ite_not]
  split
  · rename_i hc
    split
    · simp
    · split
      · simp
      · simp [api_file]
      · simp only [Option.some.injEq]
        exact ⟨fun h => ⟨hc, (ui_file apps added path rest).1 h⟩, fun h => ⟨hc, (ui_file apps added path rest).2 h⟩⟩
      · simp
      · simp
  · simp

/-- **C112** (files): whatever path is requested, whatever apps are installed and in whatever order the handlers
were registered: if the request is answered with a file of the app or asset directory, that is the file named in
the path, made of proper names below the directory: never one outside of it. -/
theorem C112_files (regs : List (Str × Target)) (apps added : List Str) (path rest assetPath : Str) :
    (serve routerClean true regs apps added path = some (.appFile rest) →
      ∃ (es : List Str) (slash : Bool), (∀ e ∈ es, Good e) ∧ path = bs "/apps/" ++ unelems es ++ (if slash then bs "/" else []) ∧
        fileOf (bs "./node_modules") rest = below (bs "node_modules") es) ∧
    (serve routerClean true regs apps added path = some (.asset rest) →
      ∃ (es : List Str) (slash : Bool), (∀ e ∈ es, Good e) ∧ path = bs "/assets/" ++ unelems es ++ (if slash then bs "/" else []) ∧
        fileOf assetPath rest = below (Path.clean (if assetPath = [] then bs "." else assetPath)) es) := by
  have b1 : bs "/" = [47] := by decide +kernel
  constructor
  · intro h
    obtain ⟨hc, hp⟩ := serve_file.1 h
    have hf := (Path.routerClean_iff path).1 hc
    have e : bs "/apps/" = 47 :: bs "apps" ++ [47] := by decide +kernel
    rw [hp, e, List.append_assoc] at hf
    obtain ⟨es, slash, hes, hr⟩ := rest_good (bs "apps") rest (by decide +kernel) hf
    refine ⟨es, slash, hes, by rw [hp, hr, b1]; simp, ?_⟩
    rw [hr, fileOf_good _ es hes slash]
    congr 1
  · intro h
    obtain ⟨hc, hp⟩ := serve_file.2 h
    have hf := (Path.routerClean_iff path).1 hc
    have e : bs "/assets/" = 47 :: bs "assets" ++ [47] := by decide +kernel
    rw [hp, e, List.append_assoc] at hf
    obtain ⟨es, slash, hes, hr⟩ := rest_good (bs "assets") rest (by decide +kernel) hf
    exact ⟨es, slash, hes, by rw [hp, hr, b1]; simp, by rw [hr, fileOf_good _ es hes slash]⟩

/-- Following a redirect. -/
def follow (regs : List (Str × Target)) (apps added : List Str) : Nat → Str → Option Handler
  | 0, path => serve routerClean true regs apps added path
  | n + 1, path =>
    match serve routerClean true regs apps added path with
    | some (.redirect dest) => follow regs apps added n dest
    | r => r

/-- **C112** (redirects): whatever path is requested, after at most two redirects a handler answers. -/
theorem C112_redirects {regs : List (Str × Target)} (h : AllRegistered regs) (apps added : List Str) (path : Str) :
    ∀ dest, follow regs apps added 2 path ≠ some (.redirect dest) := by
  -- a path that is clean and not to be completed is answered
  have last : ∀ p, routerClean p = p → slashRedirect regs p = false →
      ∀ dest, serve routerClean true regs apps added p ≠ some (.redirect dest) := by
    intro p hp hs dest
    unfold serve
    simp only [Bool.not_true, Bool.false_eq_true, if_false, hp, ne_eq, not_true_eq_false, hs]
    split
    · simp
    · simpa using (api_file p []).2.2 dest
    · simpa using ui_redirect apps added p dest
    · simp
    · simp
  -- completing a clean path gives a clean path that needs no completion
  have compl : ∀ p, routerClean p = p → slashRedirect regs p = true →
      routerClean (p ++ [47]) = p ++ [47] ∧ slashRedirect regs (p ++ [47]) = false := by
    intro p hp hs
    refine ⟨?_, by simp [slashRedirect]⟩
    rw [h.slash] at hs
    rcases slash_full p hs with rfl | rfl | rfl
    · decide +kernel
    · exact absurd hp (by decide)
    · decide +kernel
  -- from a clean path, one redirect
  have one : ∀ p, routerClean p = p → ∀ dest, follow regs apps added 1 p ≠ some (.redirect dest) := by
    intro p hp dest
    cases hs : slashRedirect regs p with
    | false =>
      have := last p hp hs
      unfold follow
      split
      · rename_i q hq; exact absurd hq (this q)
      · rename_i hr; exact this dest
    | true =>
      obtain ⟨h1, h2⟩ := compl p hp hs
      have : serve routerClean true regs apps added p = some (.redirect (p ++ [47])) := by
        simp [serve, hp, hs]
      unfold follow
      simp only [this]
      exact last _ h1 h2 dest
  intro dest
  by_cases hp : routerClean path = path
  · have := one path hp
    unfold follow
    split
    · rename_i q hq
      -- the first answer is a redirect: the completed path
      cases hs : slashRedirect regs path with
      | false => exact absurd hq (last path hp hs q)
      | true =>
        obtain ⟨h1, h2⟩ := compl path hp hs
        have e : serve routerClean true regs apps added path = some (.redirect (path ++ [47])) := by
          simp [serve, hp, hs]
        rw [e] at hq
        injection hq with hq; injection hq with hq
        rw [← hq]
        exact one _ h1 dest
    · rename_i hr
      intro e
      exact hr dest e
  · have : serve routerClean true regs apps added path = some (.redirect (routerClean path)) := by
      simp [serve, hp]
    unfold follow
    simp only [this]
    exact one _ (Path.routerClean_idem path) dest

/-! ## The addresses of the server -/

/-- `filepath.Join` of two elements. -/
def join2 (a b : Str) : Str := Path.join [a, b]

theorem good_form (es : List Str) (hne : es ≠ []) (h : ∀ e ∈ es, Good e) : routerClean (47 :: unelems es) = 47 :: unelems es :=
  Path.routerClean_of_form _ (Or.inr ⟨es, hne, h, Or.inl rfl⟩)

/-- A path below a fixed one is clean if its rest is a plain name. -/
theorem plain_clean (pre : List Str) (hpre : ∀ e ∈ pre, Good e) (hne : pre ≠ []) (n : Str) (hn : Path.Plain n) :
    routerClean (47 :: unelems pre ++ 47 :: n) = 47 :: unelems pre ++ 47 :: n := by
  have e : 47 :: unelems pre ++ 47 :: n = 47 :: unelems (pre ++ elems n) := by
    rw [Path.unelems_append _ _ hne (Path.elems_ne_nil n), Path.unelems_elems]; simp
  rw [e, good_form]
  · simp [hne]
  · intro x hx
    rcases List.mem_append.1 hx with hx | hx
    · exact hpre x hx
    · exact hn x hx

theorem good_bs {s : String} (h : (bs s ≠ [] ∧ bs s ≠ [46] ∧ bs s ≠ [46, 46] ∧ (47 : UInt8) ∉ bs s)) : Good (bs s) := h

theorem plain_append {a b : Str} (ha : Path.Plain a) (hb : Path.Plain b) : Path.Plain (a ++ 47 :: b) := by
  intro e he
  rw [Path.elems_append] at he
  rcases List.mem_append.1 he with h | h
  · exact ha e h
  · exact hb e h

theorem plain_good {n : Str} (h : Good n) : Path.Plain n := by
  intro e he
  rw [Path.elems_plain n h.2.2.2, List.mem_singleton] at he
  exact he ▸ h

theorem apps_clean (n : Str) (hn : Path.Plain n) : routerClean (bs "/apps/" ++ n) = bs "/apps/" ++ n := by
  have e : bs "/apps/" ++ n = 47 :: unelems [bs "apps"] ++ 47 :: n := by
    rw [show bs "/apps/" = 47 :: unelems [bs "apps"] ++ [47] by decide +kernel]; simp
  rw [e]
  exact plain_clean [bs "apps"] (by intro x hx; rw [List.mem_singleton.1 hx]; exact good_bs (by decide +kernel)) (by simp) n hn

/-- **C112** (addresses): whatever apps are installed and in whatever order the handlers were registered, the pages,
the assets with plain names, the addresses of the API and the WebSocket endpoints are answered by their handlers, and
the two endpoints join the hub of the deltas and that of the statistics. -/
theorem C112_addresses {regs : List (Str × Target)} (h : AllRegistered regs) (apps added : List Str) :
    let answer := serve routerClean true regs apps added
    answer (bs "/") = some .index ∧ answer (bs "/admin") = some .admin ∧ answer (bs "/admin/uuid") = some .uuid ∧
    answer (bs "/apps") = some .apps ∧
    (∀ file, Path.Plain file → answer (bs "/assets/" ++ file) = some (.asset file)) ∧
    answer (bs "/signalk/v1/api/") = some .apiHome ∧ answer (bs "/signalk/v1/api/messages") = some .apiIndex ∧
    answer (bs "/signalk/v1/api/control/send") = some .apiSend ∧
    (∀ key, Good key → answer (bs "/signalk/v1/api/messages/" ++ key) = some (.apiDetails key)) ∧
    answer (bs "/signalk/v1/stream") = some .ws ∧ joins .ws (bs "/signalk/v1/stream") = some .deltas ∧
    answer (bs "/ws/stats") = some .stats ∧ joins .stats (bs "/ws/stats") = some .statistics := by
  obtain ⟨p1, p2, p3, p4, p5⟩ := C86_pages (clean := routerClean) h
    (by intro path hp; simp only [List.mem_cons, List.not_mem_nil, or_false] at hp
        rcases hp with rfl | rfl | rfl | rfl <;> decide +kernel) apps added
  have api : ∀ rest, routerClean (bs "/signalk/v1/api/" ++ rest) = bs "/signalk/v1/api/" ++ rest → _ :=
    fun rest hc => C86_api (clean := routerClean) h apps added rest hc
  refine ⟨p1, p2, p3, p4, fun file hf => p5 file ?_, ?_, ?_, ?_, ?_, ?_, ?_, ?_, ?_⟩
  · have e : bs "/assets/" ++ file = 47 :: unelems [bs "assets"] ++ 47 :: file := by
      rw [show bs "/assets/" = 47 :: unelems [bs "assets"] ++ [47] by decide +kernel]; simp
    rw [e]
    exact plain_clean _ (by intro x hx; rw [List.mem_singleton.1 hx]; exact good_bs (by decide +kernel)) (by simp) file hf
  · have := (api [] (by decide +kernel)).1 rfl
    simpa using this
  · have := (api (bs "messages") (by decide +kernel)).2.1 (Or.inl rfl)
    rw [← show bs "/signalk/v1/api/" ++ bs "messages" = bs "/signalk/v1/api/messages" by decide +kernel]; exact this
  · have := (api (bs "control/send") (by decide +kernel)).2.2.2.1 rfl
    rw [← show bs "/signalk/v1/api/" ++ bs "control/send" = bs "/signalk/v1/api/control/send" by decide +kernel]; exact this
  · intro key hk
    have e : bs "/signalk/v1/api/messages/" ++ key = bs "/signalk/v1/api/" ++ (bs "messages/" ++ key) := by
      rw [← List.append_assoc]; congr 1
    have e2 : bs "/signalk/v1/api/" ++ (bs "messages/" ++ key)
        = 47 :: unelems [bs "signalk", bs "v1", bs "api", bs "messages"] ++ 47 :: key := by
      rw [← e, show bs "/signalk/v1/api/messages/" = 47 :: unelems [bs "signalk", bs "v1", bs "api", bs "messages"] ++ [47]
        by decide +kernel]
      simp
    have hc : routerClean (bs "/signalk/v1/api/" ++ (bs "messages/" ++ key)) = bs "/signalk/v1/api/" ++ (bs "messages/" ++ key) := by
      rw [e2]
      refine plain_clean _ ?_ (by simp) key (plain_good hk)
      intro x hx
      simp only [List.mem_cons, List.not_mem_nil, or_false] at hx
      rcases hx with rfl | rfl | rfl | rfl <;> exact good_bs (by decide +kernel)
    rw [e]
    exact (api _ hc).2.2.1 key rfl hk.1 hk.2.2.2
  · rw [serve_full h apps added (by decide +kernel) (by decide +kernel), if_neg (by decide +kernel),
      if_pos (by decide +kernel)]
  · decide +kernel
  · rw [serve_full h apps added (by decide +kernel) (by decide +kernel), if_neg (by decide +kernel),
      if_neg (by decide +kernel), if_pos rfl]
  · decide +kernel

/-- **C112** (apps): a file of an installed webapp is served, from that webapp's directory. -/
theorem C112_app {regs : List (Str × Target)} (h : AllRegistered regs) (apps added : List Str) (k file : Str)
    (hk : k ∈ apps) (hp : Path.Plain k) (hf : Path.Plain file) :
    serve routerClean true regs apps added (bs "/apps/" ++ k ++ bs "/" ++ file) = some (.appFile (k ++ bs "/" ++ file)) ∧
      fileOf (bs "./node_modules") (k ++ bs "/" ++ file) = bs "node_modules/" ++ k ++ bs "/" ++ file := by
  have b1 : bs "/" = [47] := by decide +kernel
  have e : k ++ bs "/" ++ file = k ++ 47 :: file := by rw [b1]; simp
  have hpl := plain_append hp hf
  have e2 : bs "/apps/" ++ k ++ bs "/" ++ file = bs "/apps/" ++ (k ++ 47 :: file) := by rw [← e]; simp
  refine ⟨?_, ?_⟩
  · rw [e2, e]
    exact ((C86_apps h apps added _ (apps_clean _ hpl)).1).2 (Or.inl ⟨k, hk, List.prefix_append _ _⟩)
  · have := fileOf_good (bs "./node_modules") (elems (k ++ 47 :: file)) hpl false
    simp only [Bool.false_eq_true, if_false, List.append_nil, Path.unelems_elems] at this
    rw [e, this, if_neg (by decide +kernel),
      show Path.clean (bs "./node_modules") = bs "node_modules" by decide +kernel]
    unfold below
    rw [if_neg (Path.elems_ne_nil _), if_neg (by decide +kernel), if_neg (by decide +kernel), Path.unelems_elems,
      show bs "node_modules/" = bs "node_modules" ++ bs "/" by decide +kernel]
    simp [b1]

theorem join2_plain (es : List Str) (hes : ∀ e ∈ es, Good e) (n : Str) (hn : Path.Plain n) :
    join2 (47 :: unelems es) n = below (47 :: unelems es) (elems n) := by
  unfold join2
  have := join_names (47 :: unelems es) (by simp) (elems n) hn
  rw [Path.unelems_elems, Path.clean_good es hes] at this
  exact this

theorem below_path (d n : Str) (h : d ≠ []) : below (47 :: d) (elems n) = 47 :: d ++ 47 :: n := by
  unfold below
  have b1 : bs "/" = [47] := by decide +kernel
  rw [if_neg (Path.elems_ne_nil n), if_neg (by rw [b1]; simp [h]), if_neg, Path.unelems_elems, b1]
  · simp
  · rw [show bs "." = [46] by decide +kernel]; simp

theorem good_apps : Good (bs "apps") := good_bs (by decide +kernel)
theorem good_public : Good (bs "public") := good_bs (by decide +kernel)

theorem join_apps (n : Str) (hn : Path.Plain n) : join2 (bs "/apps") n = bs "/apps/" ++ n := by
  have e : bs "/apps" = 47 :: unelems [bs "apps"] := by decide +kernel
  rw [e, join2_plain [bs "apps"] (by intro x hx; rw [List.mem_singleton.1 hx]; exact good_apps) n hn,
    below_path _ _ (by decide +kernel), show bs "/apps/" = 47 :: unelems [bs "apps"] ++ [47] by decide +kernel]
  simp

theorem join_public (n : Str) (hn : Path.Plain n) : join2 (47 :: n) (bs "/public") = 47 :: n ++ bs "/public" := by
  have hne : n ≠ [] := by
    intro h; rw [h] at hn; exact (hn [] (by simp [Path.elems])).1 rfl
  have e : bs "/public" = 47 :: unelems [bs "public"] := by decide +kernel
  have hc : Path.clean (47 :: n) = 47 :: n := by
    have := Path.clean_good (elems n) hn; rwa [Path.unelems_elems] at this
  unfold join2
  rw [e, join_below _ (by simp) [bs "public"] (by intro x hx; rw [List.mem_singleton.1 hx]; exact good_public), hc,
    show [bs "public"] = elems (bs "public") by decide +kernel, below_path n _ hne, Path.unelems_elems]

/-- **C112** (links): for every installed webapp with a plain name that sets no location of its own and whose
directory is named after it, the link on the page is served with the webapp's own start page directory. -/
theorem C112_link {regs : List (Str × Target)} (h : AllRegistered regs) (p : Packages.Pkg) (sub : Packages.Dir)
    (apps added : List Str) (hk : p.name ∈ apps) (hp : Path.Plain p.name) (hl : p.location = []) :
    serve routerClean true regs apps added (appLink { p with location := Packages.location join2 p sub })
      = some (.appFile (p.name ++ if sub.has Packages.indexHtml then [] else bs "/public")) := by
  refine C86_link_partial h join2 p sub apps added hk hl (join_public _ hp) ?_
  have e : appLink { p with location := Packages.location join2 p sub }
      = bs "/apps/" ++ (p.name ++ if sub.has Packages.indexHtml then [] else bs "/public") := by
    have ba : bs "/apps/" = bs "/apps" ++ [47] := by decide +kernel
    simp only [appLink, Packages.location, hl, if_true, Packages.slash, join_public _ hp, ba]
    split <;> simp
  simp only [e]
  apply apps_clean
  split
  · simpa using hp
  · rw [show bs "/public" = 47 :: bs "public" by decide +kernel]
    exact plain_append hp (plain_good good_public)

/-- The address of an installed package with a plain name. -/
theorem path_installed (hasIndex : Bool) (pkg : Str) (hp : Path.Plain pkg) :
    pathForPackage join2 hasIndex pkg = bs "/apps/" ++ (pkg ++ (if hasIndex then [] else bs "/public")) := by
  have j1 := join_apps pkg hp
  have j2 : join2 (bs "/apps/" ++ pkg) (bs "public") = bs "/apps/" ++ (pkg ++ bs "/public") := by
    have e : bs "/apps/" ++ pkg = 47 :: unelems (bs "apps" :: elems pkg) := by
      rw [Path.unelems_cons _ _ (Path.elems_ne_nil pkg), Path.unelems_elems,
        show bs "/apps/" = 47 :: bs "apps" ++ [47] by decide +kernel]
      simp
    rw [e, join2_plain _ (by intro x hx; rcases List.mem_cons.1 hx with rfl | hx; exact good_apps; exact hp x hx) _
      (plain_good good_public), below_path _ _ (by rw [Path.unelems_cons _ _ (Path.elems_ne_nil pkg)]; simp), ← e,
      ]
    rw [show bs "/public" = 47 :: bs "public" by decide +kernel]
    simp
  unfold pathForPackage
  cases hasIndex <;> simp [j1, j2]

/-- **C112** (freshly installed): for every package with a plain name, the address the server reports after
installing it is served from its directory, if it is not /apps/install. -/
theorem C112_installed {regs : List (Str × Target)} (h : AllRegistered regs) (hasIndex : Bool) (pkg : Str)
    (hp : Path.Plain pkg) (apps added : List Str) (ha : pathForPackage join2 hasIndex pkg ∈ added)
    (hn : hasIndex = true → pkg ≠ bs "install") :
    serve routerClean true regs apps added (pathForPackage join2 hasIndex pkg)
      = some (.appFile (pkg ++ (if hasIndex then [] else bs "/public"))) := by
  have j1 := join_apps pkg hp
  have j2 : join2 (bs "/apps/" ++ pkg) (bs "public") = bs "/apps/" ++ (pkg ++ bs "/public") := by
    have e : bs "/apps/" ++ pkg = 47 :: unelems (bs "apps" :: elems pkg) := by
      rw [Path.unelems_cons _ _ (Path.elems_ne_nil pkg), Path.unelems_elems,
        show bs "/apps/" = 47 :: bs "apps" ++ [47] by decide +kernel]
      simp
    rw [e, join2_plain _ (by intro x hx; rcases List.mem_cons.1 hx with rfl | hx; exact good_apps; exact hp x hx) _
      (plain_good good_public), below_path _ _ (by rw [Path.unelems_cons _ _ (Path.elems_ne_nil pkg)]; simp), ← e,
      ]
    rw [show bs "/public" = 47 :: bs "public" by decide +kernel]
    simp
  have e := path_installed hasIndex pkg hp
  have hc : routerClean (pathForPackage join2 hasIndex pkg) = pathForPackage join2 hasIndex pkg := by
    rw [e]
    apply apps_clean
    cases hasIndex with
    | true => simpa using hp
    | false =>
      simp only [Bool.false_eq_true, if_false]
      rw [show bs "/public" = 47 :: bs "public" by decide +kernel]
      exact plain_append hp (plain_good good_public)
  have := C86_installed_url h join2 hasIndex pkg j1 j2 apps added ha [] (by simpa using hc) ?_
  · simpa using this
  · rw [List.append_nil, e]
    intro he
    have e' : bs "/apps/install" = bs "/apps/" ++ bs "install" := by decide +kernel
    rw [e'] at he
    have he := List.append_cancel_left he
    cases hasIndex with
    | true => exact hn rfl (by simpa using he)
    | false =>
      have : (47 : UInt8) ∈ bs "install" := by
        rw [← he]; simp [show bs "/public" = 47 :: bs "public" by decide +kernel]
      revert this; decide +kernel

/-- Hypotheses met: the webapp "@signalk/chart" of a server with all handlers registered. -/
example : AllRegistered [regUi, regWs, regStats, regApi] ∧ Path.Plain (bs "@signalk/chart") ∧
    serve routerClean true [regUi, regWs, regStats, regApi] [bs "@signalk/chart"] []
      (bs "/apps/@signalk/chart/js/../index.html") = some (.redirect (bs "/apps/@signalk/chart/index.html")) ∧
    serve routerClean true [regUi, regWs, regStats, regApi] [bs "@signalk/chart"] []
      (bs "/apps/@signalk/chart/index.html") = some (.appFile (bs "@signalk/chart/index.html")) ∧
    serve routerClean true [regUi, regWs, regStats, regApi] [bs "@signalk/chart"] []
      (bs "/assets/../argo.conf") = some (.redirect (bs "/argo.conf")) := by
  refine ⟨by unfold AllRegistered; decide +kernel, ?_, by decide +kernel, by decide +kernel, by decide +kernel⟩
  unfold Path.Plain Good; decide +kernel

end Argo.Routes
