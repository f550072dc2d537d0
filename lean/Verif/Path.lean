import Verif.Signalk.Model

set_option autoImplicit false

/-!
# Paths

Go's `path.Clean` and `filepath.Join` (the same on Unix), used by main/packages.go:72-76, 91, 95, 104, 106 and
111-113, and the path cleaning of `net/http.ServeMux` and `gorilla/mux` (`cleanPath`).  Taken from the
documentation of the library: the elements of a path are processed one by one.
-/

namespace Argo.Path

open Argo

/-- Byte strings. -/
abbrev Str := Signalk.Str

/-- `"."`. -/
def dot : Str := [46]
/-- `".."`. -/
def dotdot : Str := [46, 46]

/-- The elements of a path: the text between slashes. -/
def elems : Str → List Str
  | [] => [[]]
  | c :: cs => if c = 47 then [] :: elems cs else
    match elems cs with
    | p :: ps => (c :: p) :: ps
    | [] => [[c]]

/-- Elements with slashes between them. -/
def unelems : List Str → Str
  | [] => []
  | [e] => e
  | e :: f :: es => e ++ 47 :: unelems (f :: es)

/-- One element of `path.Clean`: empty elements and "." are dropped, ".." removes the element before it, or is
dropped after the root, or stays.  The elements kept are in reverse order. -/
def push (rooted : Bool) (kept : List Str) (e : Str) : List Str :=
  if e = [] ∨ e = dot then kept
  else if e = dotdot then
    match kept with
    | [] => if rooted then [] else [dotdot]
    | t :: ts => if t = dotdot then dotdot :: t :: ts else ts
  else e :: kept

/-- Does the path start with a slash? -/
def rooted (p : Str) : Bool := p.head? == some 47

/-- Go `path.Clean`. -/
def clean (p : Str) : Str :=
  let kept := (elems p).foldl (push (rooted p)) []
  if rooted p then 47 :: unelems kept.reverse
  else if kept = [] then dot else unelems kept.reverse

/-- Go `filepath.Join`: the elements from the first non-empty one on, with slashes between them, cleaned. -/
def join (es : List Str) : Str :=
  match es.dropWhile (· = []) with
  | [] => []
  | rest => clean (unelems rest)

/-- The path cleaning of the routers: `path.Clean` of the path with a slash in front, keeping a final slash. -/
def routerClean (p : Str) : Str :=
  if p = [] then [47]
  else
    let p := if rooted p then p else 47 :: p
    let np := clean p
    if p.getLast? = some 47 ∧ np ≠ [47] then np ++ [47] else np

/-! ## Elements -/

theorem elems_ne_nil (p : Str) : elems p ≠ [] := by
  induction p with
  | nil => simp [elems]
  | cons c cs ih =>
    unfold elems
    split
    · simp
    · cases h : elems cs with
      | nil => simp
      | cons a as => simp

theorem unelems_cons (e : Str) (es : List Str) (h : es ≠ []) : unelems (e :: es) = e ++ 47 :: unelems es := by
  cases es with
  | nil => exact absurd rfl h
  | cons f es => rfl

theorem unelems_elems (p : Str) : unelems (elems p) = p := by
  induction p with
  | nil => rfl
  | cons c cs ih =>
    unfold elems
    split
    · rename_i h
      rw [unelems_cons _ _ (elems_ne_nil cs), ih, h]; rfl
    · cases h : elems cs with
      | nil => exact absurd h (elems_ne_nil cs)
      | cons a as =>
        rw [h] at ih
        cases as with
        | nil => simp only [unelems] at ih ⊢; rw [ih]
        | cons b as => simp only [unelems] at ih ⊢; rw [List.cons_append, ih]

/-- No element has a slash. -/
theorem elems_noSlash (p : Str) : ∀ e ∈ elems p, (47 : UInt8) ∉ e := by
  induction p with
  | nil => simp [elems]
  | cons c cs ih =>
    unfold elems
    split
    · simp only [List.mem_cons, forall_eq_or_imp, List.not_mem_nil, not_false_eq_true, true_and]; exact ih
    · rename_i hc
      cases h : elems cs with
      | nil => exact absurd h (elems_ne_nil cs)
      | cons a as =>
        rw [h] at ih
        intro e he
        rcases List.mem_cons.1 he with rfl | he
        · have := ih a (by simp)
          simp only [List.mem_cons, not_or]
          exact ⟨fun e => hc e.symm, this⟩
        · exact ih e (by simp [he])

theorem elems_append_slash (e : Str) (he : (47 : UInt8) ∉ e) (p : Str) : elems (e ++ 47 :: p) = e :: elems p := by
  induction e with
  | nil => simp [elems]
  | cons c cs ih =>
    simp only [List.mem_cons, not_or] at he
    rw [List.cons_append, elems, if_neg (fun h => he.1 h.symm), ih he.2]

theorem elems_plain (e : Str) (he : (47 : UInt8) ∉ e) : elems e = [e] := by
  induction e with
  | nil => rfl
  | cons c cs ih =>
    simp only [List.mem_cons, not_or] at he
    rw [elems, if_neg (fun h => he.1 h.symm), ih he.2]

theorem elems_unelems (es : List Str) (hne : es ≠ []) (h : ∀ e ∈ es, (47 : UInt8) ∉ e) :
    elems (unelems es) = es := by
  induction es with
  | nil => exact absurd rfl hne
  | cons e es ih =>
    cases es with
    | nil => exact elems_plain e (h e (by simp))
    | cons f es =>
      rw [unelems_cons _ _ (by simp), elems_append_slash e (h e (by simp)), ih (by simp) (fun x hx => h x (by simp [hx]))]

theorem elems_slash (p : Str) : elems (47 :: p) = [] :: elems p := by simp [elems]

/-- Splitting at any slash. -/
theorem elems_append (p q : Str) : elems (p ++ 47 :: q) = elems p ++ elems q := by
  induction p with
  | nil => simp [elems]
  | cons c cs ih =>
    rw [List.cons_append, elems]
    split
    · rename_i h; rw [ih]; simp [elems, h]
    · rename_i h
      rw [ih]
      cases hc : elems cs with
      | nil => exact absurd hc (elems_ne_nil cs)
      | cons a as => simp [elems, h, hc]

/-! ## Cleaning -/

/-- A name that stays as it is: not empty, not ".", not "..", no slash. -/
def Good (e : Str) : Prop := e ≠ [] ∧ e ≠ [46] ∧ e ≠ [46, 46] ∧ (47 : UInt8) ∉ e

theorem push_good (r : Bool) (kept : List Str) (e : Str) (h : Good e) : push r kept e = e :: kept := by
  unfold push
  have h1 : e ≠ dot := h.2.1
  have h2 : e ≠ dotdot := h.2.2.1
  rw [if_neg (fun h' => h'.elim h.1 h1), if_neg h2]

theorem fold_good (r : Bool) (kept es : List Str) (h : ∀ e ∈ es, Good e) :
    es.foldl (push r) kept = es.reverse ++ kept := by
  induction es generalizing kept with
  | nil => rfl
  | cons e es ih =>
    rw [List.foldl_cons, push_good r kept e (h e (by simp)), ih _ (fun x hx => h x (by simp [hx]))]
    simp

/-- After the root, only good names are kept. -/
theorem push_rooted (kept : List Str) (hk : ∀ e ∈ kept, Good e) (e : Str) (he : (47 : UInt8) ∉ e) :
    ∀ x ∈ push true kept e, Good x := by
  unfold push
  split
  · exact hk
  · rename_i h1
    simp only [not_or] at h1
    split
    · cases kept with
      | nil => simp
      | cons t ts =>
        simp only
        split
        · rename_i ht; exact absurd ht (hk t (by simp)).2.2.1
        · exact fun x hx => hk x (by simp [hx])
    · rename_i h2
      intro x hx
      rcases List.mem_cons.1 hx with rfl | hx
      · exact ⟨h1.1, h1.2, h2, he⟩
      · exact hk x hx

theorem fold_rooted (es : List Str) (hes : ∀ e ∈ es, (47 : UInt8) ∉ e) (kept : List Str) (hk : ∀ e ∈ kept, Good e) :
    ∀ x ∈ es.foldl (push true) kept, Good x := by
  induction es generalizing kept with
  | nil => exact hk
  | cons e es ih =>
    exact ih (fun x hx => hes x (by simp [hx])) _ (push_rooted kept hk e (hes e (by simp)))

/-- The clean form of a path from the root: a slash and good names with slashes between them. -/
theorem clean_rooted (p : Str) (h : rooted p = true) :
    ∃ es, (∀ e ∈ es, Good e) ∧ clean p = 47 :: unelems es := by
  refine ⟨((elems p).foldl (push true) []).reverse, ?_, ?_⟩
  · intro e he
    exact fold_rooted (elems p) (elems_noSlash p) [] (by simp) e (List.mem_reverse.1 he)
  · simp only [clean, h, if_true]

/-- Cleaning keeps a clean path. -/
theorem clean_good (es : List Str) (h : ∀ e ∈ es, Good e) : clean (47 :: unelems es) = 47 :: unelems es := by
  have hr : rooted (47 :: unelems es) = true := rfl
  simp only [clean, hr, if_true]
  rw [elems_slash, List.foldl_cons, show push true [] [] = [] from rfl]
  cases es with
  | nil => simp [unelems, elems, push]
  | cons e es =>
    rw [elems_unelems _ (by simp) (fun x hx => (h x hx).2.2.2), fold_good true [] _ h]
    simp

/-- Cleaning a path from the root twice is cleaning it once. -/
theorem clean_idem (p : Str) (h : rooted p = true) : clean (clean p) = clean p := by
  obtain ⟨es, hes, e⟩ := clean_rooted p h
  rw [e, clean_good es hes]

theorem unelems_last (es : List Str) (hne : es ≠ []) (h : ∀ e ∈ es, Good e) :
    (unelems es).getLast? ≠ some 47 ∧ unelems es ≠ [] := by
  induction es with
  | nil => exact absurd rfl hne
  | cons e es ih =>
    have he := h e (by simp)
    cases es with
    | nil =>
      refine ⟨fun hl => he.2.2.2 ?_, he.1⟩
      exact List.mem_of_getLast? hl
    | cons f es =>
      rw [unelems_cons _ _ (by simp)]
      obtain ⟨h1, h2⟩ := ih (by simp) (fun x hx => h x (by simp [hx]))
      refine ⟨?_, by simp⟩
      rw [List.getLast?_append, List.getLast?_cons]
      cases hg : (unelems (f :: es)).getLast? with
      | none => rw [List.getLast?_eq_none_iff] at hg; exact absurd hg h2
      | some x => rw [hg] at h1; simpa using h1

/-- The form of every path the routers do not redirect. -/
def CleanForm (p : Str) : Prop :=
  p = [47] ∨ ∃ es, es ≠ [] ∧ (∀ e ∈ es, Good e) ∧ (p = 47 :: unelems es ∨ p = 47 :: unelems es ++ [47])

theorem routerClean_form (p : Str) : CleanForm (routerClean p) := by
  unfold routerClean
  split
  · exact Or.inl rfl
  · obtain ⟨q, hq, hr⟩ : ∃ q, (if rooted p then p else 47 :: p) = q ∧ rooted q = true := by
      refine ⟨_, rfl, ?_⟩
      split
      · assumption
      · rfl
    simp only [hq]
    obtain ⟨es, hes, e⟩ := clean_rooted q hr
    rw [e]
    cases es with
    | nil => left; simp [unelems]
    | cons f es =>
      right
      refine ⟨f :: es, by simp, hes, ?_⟩
      split
      · exact Or.inr rfl
      · exact Or.inl rfl

theorem elems_unelems_slash (es : List Str) (hne : es ≠ []) (h : ∀ e ∈ es, (47 : UInt8) ∉ e) :
    elems (unelems es ++ [47]) = es ++ [[]] := by
  rw [elems_append (unelems es) [], elems_unelems es hne h]; rfl

theorem clean_good_slash (es : List Str) (hne : es ≠ []) (h : ∀ e ∈ es, Good e) :
    clean (47 :: unelems es ++ [47]) = 47 :: unelems es := by
  have hr : rooted (47 :: unelems es ++ [47]) = true := rfl
  simp only [clean, hr, if_true]
  rw [List.cons_append, elems_slash, List.foldl_cons, show push true [] [] = [] from rfl,
    elems_unelems_slash es hne (fun x hx => (h x hx).2.2.2), List.foldl_append, fold_good true [] _ h]
  simp [push]

theorem routerClean_of_form (p : Str) (h : CleanForm p) : routerClean p = p := by
  rcases h with rfl | ⟨es, hne, hes, rfl | rfl⟩
  · decide +kernel
  · have hr : rooted (47 :: unelems es) = true := rfl
    simp only [routerClean, hr, if_true, clean_good es hes]
    rw [if_neg (by simp), if_neg]
    obtain ⟨h1, h2⟩ := unelems_last es hne hes
    rintro ⟨hl, _⟩
    rw [List.getLast?_cons] at hl
    cases hg : (unelems es).getLast? with
    | none => rw [List.getLast?_eq_none_iff] at hg; exact h2 hg
    | some x => rw [hg] at h1 hl; exact h1 (by simpa using hl)
  · have hr : rooted (47 :: unelems es ++ [47]) = true := rfl
    simp only [routerClean, hr, if_true, clean_good_slash es hne hes]
    rw [if_neg (by simp), if_pos]
    refine ⟨by rw [List.getLast?_append]; rfl, ?_⟩
    have := (unelems_last es hne hes).2
    simp [this]

/-- The paths the routers do not redirect are exactly those of a slash, good names with slashes between them, and
perhaps a final slash. -/
theorem routerClean_iff (p : Str) : routerClean p = p ↔ CleanForm p :=
  ⟨fun h => h ▸ routerClean_form p, routerClean_of_form p⟩

/-- Redirecting once is enough. -/
theorem routerClean_idem (p : Str) : routerClean (routerClean p) = routerClean p :=
  routerClean_of_form _ (routerClean_form p)

/-! ## Names of packages -/

/-- A package name, with or without scope: good names with slashes between them. -/
def Plain (n : Str) : Prop := ∀ e ∈ elems n, Good e

theorem Plain.eq {n : Str} (_ : Plain n) : n = unelems (elems n) := (unelems_elems n).symm

theorem unelems_append (a b : List Str) (ha : a ≠ []) (hb : b ≠ []) :
    unelems (a ++ b) = unelems a ++ 47 :: unelems b := by
  induction a with
  | nil => exact absurd rfl ha
  | cons e es ih =>
    cases es with
    | nil => rw [List.cons_append, List.nil_append, unelems_cons _ _ hb]; rfl
    | cons f es =>
      rw [List.cons_append, unelems_cons e (f :: es ++ b) (by simp), ih (by simp),
        unelems_cons e (f :: es) (by simp)]
      simp

/-- Joining plain names to a plain path from the root. -/
theorem clean_plain (es : List Str) (hne : es ≠ []) (n : Str) (hes : ∀ e ∈ es, Good e) (hn : Plain n) :
    clean (47 :: unelems es ++ 47 :: n) = 47 :: unelems es ++ 47 :: n := by
  have : 47 :: unelems es ++ 47 :: n = 47 :: unelems (es ++ elems n) := by
    rw [unelems_append es (elems n) hne (elems_ne_nil n), unelems_elems]; simp
  rw [this, clean_good]
  intro e he
  rcases List.mem_append.1 he with h | h
  · exact hes e h
  · exact hn e h

end Argo.Path
