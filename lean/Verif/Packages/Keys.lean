import Verif.Routes.Paths
import Verif.Packages.Props

set_option autoImplicit false

/-!
# C77: the keys of the listing are the paths below node_modules

The model of `getInstalledPackages` (`listing`) keeps what is left of the path after stripping `node_modules/`.  Here
the code's own computation is compared with that.
-/

namespace Argo.Packages

open Argo
open Argo.Signalk (bs)
open Argo.Path (Good)

/-- The `path` argument of `getInstalledPackages` after going down the scopes `ns`: packages.go:80 with
"./node_modules" (ui_server.go:137, 187), and line 91, `filepath.Join(path, file.Name())`. -/
def pathAt (ns : List Str) : Str := ns.foldl (fun path n => Path.join [path, n]) (bs "./node_modules")

/-- packages.go:110-114: the key of the package in the directory `n`. -/
def keyOf (path n : Str) : Str :=
  if bs "node_modules" <:+: path then (Path.join [path, n]).drop 13 else Path.join [path, n]

theorem joinPath_unelems (ns : List Str) (n : Str) : joinPath ns n = Path.unelems (ns ++ [n]) := by
  induction ns with
  | nil => rfl
  | cons s ss ih =>
    rw [joinPath, ih, List.cons_append, Path.unelems_cons _ _ (by simp)]
    simp [slash]

theorem clean_below (es : List Str) (hes : ∀ e ∈ es, Good e) :
    Path.clean (Routes.below (bs "node_modules") es) = Routes.below (bs "node_modules") es := by
  have hg : ∀ e ∈ bs "node_modules" :: es, Good e := by
    intro x hx
    rcases List.mem_cons.1 hx with rfl | hx
    · exact Routes.good_bs (by decide +kernel)
    · exact hes x hx
  have e : Routes.below (bs "node_modules") es = Path.unelems (bs "node_modules" :: es) := by
    unfold Routes.below
    cases es with
    | nil => rfl
    | cons f es =>
      rw [if_neg (by simp), if_neg (by decide +kernel), if_neg (by decide +kernel),
        Path.unelems_cons (bs "node_modules") (f :: es) (by simp), show bs "/" = [47] by decide +kernel]
      simp
  rw [e]
  have hr : Path.rooted (Path.unelems (bs "node_modules" :: es)) = false := by
    obtain ⟨c, cs, hc, h47⟩ := Routes.unelems_first (bs "node_modules") es
      (by have := hg _ (List.mem_cons_self ..); exact ⟨this.1, this.2.1, this.2.2.2⟩)
    rw [hc]; simp [Path.rooted, h47]
  unfold Path.clean
  simp only [hr, Routes.fold_elems _ hg]
  simp

theorem pathAt_eq (ns : List Str) (h : ∀ e ∈ ns, Good e) (hne : ns ≠ []) :
    pathAt ns = Routes.below (bs "node_modules") ns := by
  have step : ∀ (pre : List Str) (p : Str), p ≠ [] → (∀ e ∈ pre, Good e) →
      Path.clean p = Routes.below (bs "node_modules") pre → ∀ (ns : List Str), (∀ e ∈ ns, Good e) → ns ≠ [] →
      ns.foldl (fun path n => Path.join [path, n]) p = Routes.below (bs "node_modules") (pre ++ ns) := by
    intro pre p hp hpre hc ns
    induction ns generalizing pre p with
    | nil => intro _ hn; exact absurd rfl hn
    | cons n ns ih =>
      intro hg _
      have hn := hg n (by simp)
      have e : Path.join [p, n] = Routes.below (bs "node_modules") (pre ++ [n]) := by
        have := Routes.join_names p hp [n] (by simpa using hn)
        rw [show Path.unelems [n] = n from rfl, hc] at this
        rw [this]
        unfold Routes.below
        cases pre with
        | nil => simp
        | cons a pre =>
          simp only [List.cons_append, reduceCtorEq, if_false, show bs "node_modules" ≠ bs "/" by decide +kernel,
            show bs "node_modules" ≠ bs "." by decide +kernel]
          rw [if_neg (by
              intro h
              have := congrArg List.length h
              rw [List.length_append, List.length_append, show (bs "/").length = 1 by decide +kernel,
                show (bs "node_modules").length = 12 by decide +kernel] at this
              omega),
            if_neg (by
              intro h
              have := congrArg List.length h
              rw [List.length_append, List.length_append, show (bs "/").length = 1 by decide +kernel,
                show (bs "node_modules").length = 12 by decide +kernel,
                show (bs ".").length = 1 by decide +kernel] at this
              omega)]
          rw [← List.cons_append, Path.unelems_append _ _ (by simp) (by simp), show bs "/" = [47] by decide +kernel]
          simp
      rw [List.foldl_cons]
      cases ns with
      | nil => exact e
      | cons m ns =>
        have hpre' : ∀ e ∈ pre ++ [n], Good e := by
          intro x hx
          rcases List.mem_append.1 hx with hx | hx
          · exact hpre x hx
          · rw [List.mem_singleton.1 hx]; exact hn
        have := ih (pre ++ [n]) (Path.join [p, n]) (by
          rw [e]; unfold Routes.below
          simp only [List.append_eq_nil_iff, List.cons_ne_self, and_false, if_false,
            show bs "node_modules" ≠ bs "/" by decide +kernel, show bs "node_modules" ≠ bs "." by decide +kernel]
          simp [show bs "node_modules" ≠ [] by decide +kernel]) hpre' (by rw [e, clean_below _ hpre'])
          (fun x hx => hg x (by simp [List.mem_cons.1 hx])) (by simp)
        rw [this, List.append_assoc]; rfl
  have := step [] (bs "./node_modules") (by decide +kernel) (by simp) (by decide +kernel) ns h hne
  rw [List.nil_append] at this
  exact this

/-- **C77** (keys): at every level of the tree, below any scopes with proper names, the key under which the code
stores a package is its path below node_modules, as in the model. -/
theorem C77_keys (ns : List Str) (n : Str) (h : ∀ e ∈ ns, Good e) (hn : Good n) :
    keyOf (pathAt ns) n = joinPath ns n := by
  have b1 : bs "/" = [47] := by decide +kernel
  have key : ∀ es : List Str, es ≠ [] → (Routes.below (bs "node_modules") es).drop 13 = Path.unelems es := by
    intro es hes
    unfold Routes.below
    rw [if_neg hes, if_neg (by decide +kernel), if_neg (by decide +kernel)]
    rw [show bs "node_modules" ++ bs "/" ++ Path.unelems es = (bs "node_modules/") ++ Path.unelems es by
      rw [show bs "node_modules/" = bs "node_modules" ++ bs "/" by decide +kernel]]
    rw [show 13 = (bs "node_modules/").length by decide +kernel, List.drop_left]
  unfold keyOf
  cases ns with
  | nil =>
    rw [if_pos (by decide +kernel), joinPath_unelems]
    have := Routes.join_names (bs "./node_modules") (by decide +kernel) [n] (by simpa using hn)
    rw [show Path.unelems [n] = n from rfl, show Path.clean (bs "./node_modules") = bs "node_modules" by decide +kernel] at this
    rw [show pathAt [] = bs "./node_modules" from rfl, this, key _ (by simp)]
    rfl
  | cons s ss =>
    have hp := pathAt_eq (s :: ss) h (by simp)
    have hj : Path.join [pathAt (s :: ss), n] = Routes.below (bs "node_modules") (s :: ss ++ [n]) := by
      have := pathAt_eq (s :: ss ++ [n]) (by
        intro x hx
        rcases List.mem_append.1 hx with hx | hx
        · exact h x hx
        · rw [List.mem_singleton.1 hx]; exact hn) (by simp)
      rw [← this]
      simp [pathAt]
    rw [if_pos, hj, key _ (by simp), joinPath_unelems]
    rw [hp]
    unfold Routes.below
    rw [if_neg (by simp), if_neg (by decide +kernel), if_neg (by decide +kernel), List.append_assoc]
    exact (List.prefix_append _ _).isInfix

/-- A case: a package of a scope. -/
example : keyOf (pathAt [bs "@signalk"]) (bs "chart") = bs "@signalk/chart" := by decide +kernel

end Argo.Packages
