import Verif.Packages.Model
import Mathlib.Tactic.Push
import Mathlib.Tactic.ByContra

set_option autoImplicit false

/-!
# C77: the listing of installed packages
-/

namespace Argo.Packages

open Argo

/-! ## Specification -/

/-- `Entry d n l sub`: the directory `d` has a subdirectory `n` (with content `sub`, listable or not). -/
inductive Entry : Dir → Str → Bool → Dir → Prop
  | here (n : Str) (l : Bool) (sub rest : Dir) : Entry (.dir n l sub rest) n l sub
  | skipFile (m : Str) (c : Option Str) (rest : Dir) (n : Str) (l : Bool) (sub : Dir) :
      Entry rest n l sub → Entry (.file m c rest) n l sub
  | skipDir (m : Str) (l' : Bool) (sub' rest : Dir) (n : Str) (l : Bool) (sub : Dir) :
      Entry rest n l sub → Entry (.dir m l' sub' rest) n l sub

/-- `Reads d n c`: the entry `n` of the directory `d` is a file, and reading it gives `c`. -/
inductive Reads : Dir → Str → Str → Prop
  | here (n : Str) (c : Str) (rest : Dir) : Reads (.file n (some c) rest) n c
  | skipFile (m : Str) (c' : Option Str) (rest : Dir) (n c : Str) : m ≠ n → Reads rest n c →
      Reads (.file m c' rest) n c
  | skipDir (m : Str) (l : Bool) (sub rest : Dir) (n c : Str) : m ≠ n → Reads rest n c →
      Reads (.dir m l sub rest) n c

/-- `Named d n`: the directory `d` has an entry `n`, of any kind. -/
inductive Named : Dir → Str → Prop
  | file (n : Str) (c : Option Str) (rest : Dir) : Named (.file n c rest) n
  | dir (n : Str) (l : Bool) (sub rest : Dir) : Named (.dir n l sub rest) n
  | skipFile (m : Str) (c : Option Str) (rest : Dir) (n : Str) : Named rest n → Named (.file m c rest) n
  | skipDir (m : Str) (l : Bool) (sub rest : Dir) (n : Str) : Named rest n → Named (.dir m l sub rest) n

/-- `Level d scopes d'`: going down the subdirectories named `scopes`, all scopes (names that begin with @)
that can be listed, leads from `d` to `d'`. -/
inductive Level : Dir → List Str → Dir → Prop
  | top (d : Dir) : Level d [] d
  | down (d : Dir) (n : Str) (sub : Dir) (ns : List Str) (d' : Dir) : isScope n = true → Entry d n true sub →
      Level sub ns d' → Level d (n :: ns) d'

/-- Path names joined by slashes. -/
def joinPath : List Str → Str → Str
  | [], n => n
  | s :: ss, n => s ++ [slash] ++ joinPath ss n

/-- A directory at some level is a webapp: its name is that of a package, and it has a package.json that is
valid and has the keyword. -/
structure Webapp (parse : Str → Option Pkg) (d : Dir) (n : Str) (sub : Dir) (p : Pkg) : Prop where
  entry : ∃ l, Entry d n l sub
  notScope : isScope n = false
  notBin : n ≠ Signalk.bs ".bin"
  json : ∃ text, Reads sub (Signalk.bs "package.json") text ∧ parse text = some p
  keyword : Signalk.bs "signalk-webapp" ∈ p.keywords

/-- Every package directory of this level (not a scope, not .bin) has a package.json that can be read. -/
def Clean (d : Dir) : Prop :=
  ∀ n l sub, Entry d n l sub → isScope n = false → n ≠ Signalk.bs ".bin" →
    ∃ text, Reads sub (Signalk.bs "package.json") text

/-- What is listed for a package `p` in the directory `sub`: what its package.json says, with the location
completed.  The location is the one given in package.json, or the name after a slash if none is given; if
there is no index.html in the directory, /public is joined to it. -/
inductive Shown (join : Str → Str → Str) (p : Pkg) (sub : Dir) : Pkg → Prop
  | mk (base loc : Str) :
      (p.location ≠ [] ∧ base = p.location ∨ p.location = [] ∧ base = Signalk.bs "/" ++ p.name) →
      (Named sub (Signalk.bs "index.html") ∧ loc = base ∨
        ¬ Named sub (Signalk.bs "index.html") ∧ loc = join base (Signalk.bs "/public")) →
      Shown join p sub { p with location := loc }

/-! ## Proofs -/

theorem reads_iff (d : Dir) (n c : Str) : d.readFile n = some c ↔ Reads d n c := by
  induction d with
  | nil => constructor <;> intro h <;> cases h
  | file m c' rest ih =>
    unfold Dir.readFile
    split
    · rename_i h
      subst h
      constructor
      · rintro rfl; exact .here _ _ _
      · intro h
        cases h with
        | here => rfl
        | skipFile _ _ _ _ _ h => exact absurd rfl h
    · rename_i hne
      rw [ih]
      constructor
      · exact .skipFile _ _ _ _ _ hne
      · intro h
        cases h with
        | here => exact absurd rfl hne
        | skipFile _ _ _ _ _ _ h => exact h
  | dir m l sub rest _ ih =>
    unfold Dir.readFile
    split
    · rename_i h
      subst h
      constructor
      · intro h; cases h
      · intro h
        cases h with
        | skipDir _ _ _ _ _ _ h => exact absurd rfl h
    · rename_i hne
      rw [ih]
      constructor
      · exact .skipDir _ _ _ _ _ _ hne
      · intro h
        cases h with
        | skipDir _ _ _ _ _ _ _ h => exact h

theorem named_iff (d : Dir) (n : Str) : d.has n = true ↔ Named d n := by
  induction d with
  | nil => constructor <;> intro h <;> cases h
  | file m c' rest ih =>
    simp only [Dir.has, Bool.or_eq_true, decide_eq_true_eq, ih]
    constructor
    · rintro (rfl | h)
      · exact .file _ _ _
      · exact .skipFile _ _ _ _ h
    · intro h
      cases h with
      | file => exact Or.inl rfl
      | skipFile _ _ _ _ h => exact Or.inr h
  | dir m l sub rest _ ih =>
    simp only [Dir.has, Bool.or_eq_true, decide_eq_true_eq, ih]
    constructor
    · rintro (rfl | h)
      · exact .dir _ _ _ _
      · exact .skipDir _ _ _ _ _ h
    · intro h
      cases h with
      | dir => exact Or.inl rfl
      | skipDir _ _ _ _ _ h => exact Or.inr h

theorem slash_name (n : Str) : Signalk.bs "/" ++ n = slash :: n := by
  have : Signalk.bs "/" = [slash] := by decide +kernel
  rw [this]; rfl

theorem shown_iff (join : Str → Str → Str) (p : Pkg) (sub : Dir) (q : Pkg) :
    q = { p with location := location join p sub } ↔ Shown join p sub q := by
  have hloc : location join p sub = if sub.has (Signalk.bs "index.html") then
      (if p.location = [] then slash :: p.name else p.location)
    else join (if p.location = [] then slash :: p.name else p.location) (Signalk.bs "/public") := rfl
  constructor
  · rintro rfl
    refine .mk (if p.location = [] then slash :: p.name else p.location) _ ?_ ?_
    · by_cases h : p.location = []
      · exact Or.inr ⟨h, by simp [h, slash_name]⟩
      · exact Or.inl ⟨h, by simp [h]⟩
    · by_cases h : Named sub (Signalk.bs "index.html")
      · exact Or.inl ⟨h, by rw [hloc, if_pos ((named_iff _ _).2 h)]⟩
      · exact Or.inr ⟨h, by rw [hloc, if_neg (fun h' => h ((named_iff _ _).1 h'))]⟩
  · rintro ⟨base, loc, hb, hl⟩
    have hb' : base = if p.location = [] then slash :: p.name else p.location := by
      rcases hb with ⟨h, rfl⟩ | ⟨h, rfl⟩
      · rw [if_neg h]
      · rw [if_pos h, slash_name]
    rcases hl with ⟨h, rfl⟩ | ⟨h, rfl⟩
    · rw [hloc, if_pos ((named_iff _ _).2 h), hb']
    · rw [hloc, if_neg (fun h' => h ((named_iff _ _).1 h')), hb']

theorem contains_iff (s : List Str) (e : Str) : contains s e = true ↔ e ∈ s := by
  induction s with
  | nil => simp [contains]
  | cons a as ih =>
    unfold contains
    split
    · rename_i h; simp [h]
    · rename_i h; simp only [ih, List.mem_cons]
      exact ⟨Or.inr, fun h' => h'.resolve_left (fun e' => h e'.symm)⟩

/-- **C77** (vocabulary): the scopes are the directories whose name begins with @. -/
theorem C77_scope (n : Str) : isScope n = true ↔ Signalk.bs "@" <+: n := by
  have : Signalk.bs "@" = [64] := by decide +kernel
  rw [this]
  cases n with
  | nil => simp [isScope]
  | cons c cs =>
    simp only [isScope, atSign, List.head?_cons, Option.some.injEq, decide_eq_true_eq, List.cons_prefix_cons,
      List.nil_prefix, and_true]
    exact eq_comm

variable (parse : Str → Option Pkg) (join : Str → Str → Str)

theorem listing_isSome (pre : Str) (d : Dir) : (listing parse join pre d).isSome = true ↔ Clean d := by
  induction d generalizing pre with
  | nil =>
    simp only [listing, Option.isSome_some, true_iff]
    intro n l sub h; cases h
  | file m c rest ih =>
    rw [listing, ih]
    constructor
    · intro h n l sub he
      cases he with
      | skipFile _ _ _ _ _ _ he => exact h n l sub he
    · intro h n l sub he
      exact h n l sub (.skipFile _ _ _ _ _ _ he)
  | dir m l' sub' rest ihs ih =>
    have skip (h : isScope m = true ∨ m = dotBin ∨ (sub'.readFile packageJson).isSome = true) :
        Clean rest ↔ Clean (.dir m l' sub' rest) := by
      constructor
      · intro hc n l sub he hs hb
        cases he with
        | here => 
          rcases h with h | h | h
          · rw [h] at hs; cases hs
          · exact absurd h hb
          · obtain ⟨t, ht⟩ := Option.isSome_iff_exists.1 h
            exact ⟨t, (reads_iff _ _ _).1 ht⟩
        | skipDir _ _ _ _ _ _ _ he => exact hc n l sub he hs hb
      · intro hc n l sub he
        exact hc n l sub (.skipDir _ _ _ _ _ _ _ he)
    unfold listing
    split
    · rename_i hs
      rw [Option.isSome_map, ih, skip (Or.inl hs)]
    · rename_i hs
      split
      · rename_i hb
        rw [ih, skip (Or.inr (Or.inl hb))]
      · rename_i hb
        cases hr : sub'.readFile packageJson with
        | none =>
          simp only [Option.isSome_none, Bool.false_eq_true, false_iff]
          intro hc
          obtain ⟨t, ht⟩ := hc m l' sub' (.here _ _ _ _) (by simpa using hs) hb
          rw [← reads_iff] at ht
          rw [show sub'.readFile (Signalk.bs "package.json") = sub'.readFile packageJson from rfl, hr] at ht
          cases ht
        | some text =>
          have hsk := skip (Or.inr (Or.inr (by rw [hr]; rfl)))
          simp only
          cases parse text with
          | none => rw [ih, hsk]
          | some p =>
            simp only
            split
            · rw [Option.isSome_map, ih, hsk]
            · rw [ih, hsk]

/-- As `Level`, with every directory on the way clean, the last one included. -/
inductive CleanLevel : Dir → List Str → Dir → Prop
  | top (d : Dir) : Clean d → CleanLevel d [] d
  | down (d : Dir) (n : Str) (sub : Dir) (ns : List Str) (d' : Dir) : Clean d → isScope n = true →
      Entry d n true sub → CleanLevel sub ns d' → CleanLevel d (n :: ns) d'

theorem Entry.size {d : Dir} {n : Str} {l : Bool} {sub : Dir} (h : Entry d n l sub) : sizeOf sub < sizeOf d := by
  induction h with
  | here n l sub rest => simp; omega
  | skipFile m c rest n l sub _ ih => simp; omega
  | skipDir m l' sub' rest n l sub _ ih => simp; omega

theorem entry_file (m : Str) (c : Option Str) (rest : Dir) (n : Str) (l : Bool) (sub : Dir) :
    Entry (.file m c rest) n l sub ↔ Entry rest n l sub :=
  ⟨fun h => by cases h with | skipFile _ _ _ _ _ _ h => exact h, .skipFile _ _ _ _ _ _⟩

theorem entry_dir (m : Str) (l' : Bool) (sub' rest : Dir) (n : Str) (l : Bool) (sub : Dir) :
    Entry (.dir m l' sub' rest) n l sub ↔ (n = m ∧ l = l' ∧ sub = sub') ∨ Entry rest n l sub := by
  constructor
  · intro h
    cases h with
    | here => exact Or.inl ⟨rfl, rfl, rfl⟩
    | skipDir _ _ _ _ _ _ _ h => exact Or.inr h
  · rintro (⟨rfl, rfl, rfl⟩ | h)
    · exact .here _ _ _ _
    · exact .skipDir _ _ _ _ _ _ _ h

/-- What one level contributes. -/
def Local (pre : Str) (d : Dir) (k : Str) (q : Pkg) : Prop :=
  (∃ n sub p, Webapp parse d n sub p ∧ k = pre ++ n ∧ Shown join p sub q) ∨
    ∃ n sub, isScope n = true ∧ Entry d n true sub ∧
      (k, q) ∈ (listing parse join (pre ++ n ++ [slash]) sub).getD []

theorem local_file (pre : Str) (m : Str) (c : Option Str) (rest : Dir) (k : Str) (q : Pkg) :
    Local parse join pre (.file m c rest) k q ↔ Local parse join pre rest k q := by
  unfold Local
  have hw : ∀ n sub p, Webapp parse (.file m c rest) n sub p ↔ Webapp parse rest n sub p := by
    intro n sub p
    constructor
    · rintro ⟨⟨l, h⟩, h2, h3, h4, h5⟩; exact ⟨⟨l, (entry_file ..).1 h⟩, h2, h3, h4, h5⟩
    · rintro ⟨⟨l, h⟩, h2, h3, h4, h5⟩; exact ⟨⟨l, (entry_file ..).2 h⟩, h2, h3, h4, h5⟩
  simp only [hw, entry_file]

theorem webapp_dir (m : Str) (l' : Bool) (sub' rest : Dir) (n : Str) (sub : Dir) (p : Pkg) :
    Webapp parse (.dir m l' sub' rest) n sub p ↔
      (n = m ∧ sub = sub' ∧ isScope m = false ∧ m ≠ dotBin ∧
        (∃ text, sub'.readFile packageJson = some text ∧ parse text = some p) ∧ webapp ∈ p.keywords) ∨
      Webapp parse rest n sub p := by
  constructor
  · rintro ⟨⟨l, h⟩, h2, h3, h4, h5⟩
    rcases (entry_dir ..).1 h with ⟨rfl, rfl, rfl⟩ | h
    · obtain ⟨t, ht, hp⟩ := h4
      exact Or.inl ⟨rfl, rfl, h2, h3, ⟨t, (reads_iff _ _ _).2 ht, hp⟩, h5⟩
    · exact Or.inr ⟨⟨l, h⟩, h2, h3, h4, h5⟩
  · rintro (⟨rfl, rfl, h2, h3, h4, h5⟩ | ⟨⟨l, h⟩, h2, h3, h4, h5⟩)
    · obtain ⟨t, ht, hp⟩ := h4
      exact ⟨⟨l', .here _ _ _ _⟩, h2, h3, ⟨t, (reads_iff _ _ _).1 ht, hp⟩, h5⟩
    · exact ⟨⟨l, (entry_dir ..).2 (Or.inr h)⟩, h2, h3, h4, h5⟩

theorem listing_mem (pre : Str) (d : Dir) (r : List (Str × Pkg)) (h : listing parse join pre d = some r)
    (k : Str) (q : Pkg) : (k, q) ∈ r ↔ Local parse join pre d k q := by
  induction d generalizing r with
  | nil =>
    simp only [listing, Option.some.injEq] at h
    subst h
    simp only [List.not_mem_nil, Local, false_iff, not_or, not_exists, not_and]
    exact ⟨fun n sub p hw => (by obtain ⟨⟨l, he⟩, _⟩ := hw; cases he), fun n sub _ he => (by cases he)⟩
  | file m c rest ih =>
    rw [listing] at h
    rw [ih r h, local_file]
  | dir m l' sub' rest _ ih =>
    have key (hnot : ¬ ∃ p, isScope m = false ∧ m ≠ dotBin ∧
        (∃ text, sub'.readFile packageJson = some text ∧ parse text = some p) ∧ webapp ∈ p.keywords)
        (hs : isScope m = false) :
        Local parse join pre (.dir m l' sub' rest) k q ↔ Local parse join pre rest k q := by
      unfold Local
      constructor
      · rintro (⟨n, sub, p, hw, h1⟩ | ⟨n, sub, h1, he, h2⟩)
        · rcases (webapp_dir ..).1 hw with ⟨rfl, rfl, hw⟩ | hw
          · exact absurd ⟨p, hw⟩ hnot
          · exact Or.inl ⟨n, sub, p, hw, h1⟩
        · rcases (entry_dir ..).1 he with ⟨rfl, _, _⟩ | he
          · rw [hs] at h1; cases h1
          · exact Or.inr ⟨n, sub, h1, he, h2⟩
      · rintro (⟨n, sub, p, hw, h1⟩ | ⟨n, sub, h1, he, h2⟩)
        · exact Or.inl ⟨n, sub, p, (webapp_dir ..).2 (Or.inr hw), h1⟩
        · exact Or.inr ⟨n, sub, h1, (entry_dir ..).2 (Or.inr he), h2⟩
    unfold listing at h
    split at h
    · rename_i hs
      rw [Option.map_eq_some_iff] at h
      obtain ⟨r', hr', rfl⟩ := h
      rw [List.mem_append, ih r' hr']
      unfold Local
      constructor
      · rintro (hin | ⟨n, sub, p, hw, h1⟩ | ⟨n, sub, h1, he, h2⟩)
        · cases l' with
          | false => simp at hin
          | true => exact Or.inr ⟨m, sub', hs, .here _ _ _ _, by simpa using hin⟩
        · exact Or.inl ⟨n, sub, p, (webapp_dir ..).2 (Or.inr hw), h1⟩
        · exact Or.inr ⟨n, sub, h1, (entry_dir ..).2 (Or.inr he), h2⟩
      · rintro (⟨n, sub, p, hw, h1⟩ | ⟨n, sub, h1, he, h2⟩)
        · rcases (webapp_dir ..).1 hw with ⟨rfl, rfl, hw, _⟩ | hw
          · rw [hs] at hw; cases hw
          · exact Or.inr (Or.inl ⟨n, sub, p, hw, h1⟩)
        · rcases (entry_dir ..).1 he with ⟨rfl, rfl, rfl⟩ | he
          · left; simpa using h2
          · exact Or.inr (Or.inr ⟨n, sub, h1, he, h2⟩)
    · rename_i hs
      have hs : isScope m = false := by simpa using hs
      split at h
      · rename_i hb
        rw [ih r h, key (by rintro ⟨p, _, hb', _⟩; exact hb' hb) hs]
      · rename_i hb
        cases hr : sub'.readFile packageJson with
        | none => rw [hr] at h; cases h
        | some text =>
          rw [hr] at h
          simp only at h
          cases hp : parse text with
          | none =>
            rw [hp] at h
            rw [ih r h, key (by rintro ⟨p, _, _, ⟨t, ht, hp'⟩, _⟩; rw [hr] at ht; cases ht; rw [hp] at hp'; cases hp') hs]
          | some p =>
            rw [hp] at h
            simp only at h
            split at h
            · rename_i hk
              rw [contains_iff] at hk
              rw [Option.map_eq_some_iff] at h
              obtain ⟨r', hr', rfl⟩ := h
              rw [List.mem_cons, ih r' hr']
              unfold Local
              constructor
              · rintro (hin | ⟨n, sub, p, hw, h1⟩ | ⟨n, sub, h1, he, h2⟩)
                · cases hin
                  exact Or.inl ⟨m, sub', p, (webapp_dir ..).2 (Or.inl ⟨rfl, rfl, hs, hb, ⟨text, hr, hp⟩, hk⟩),
                    rfl, (shown_iff _ _ _ _).1 rfl⟩
                · exact Or.inl ⟨n, sub, p, (webapp_dir ..).2 (Or.inr hw), h1⟩
                · exact Or.inr ⟨n, sub, h1, (entry_dir ..).2 (Or.inr he), h2⟩
              · rintro (⟨n, sub, p', hw, h1⟩ | ⟨n, sub, h1, he, h2⟩)
                · rcases (webapp_dir ..).1 hw with ⟨rfl, rfl, _, _, ⟨t, ht, hp'⟩, _⟩ | hw
                  · rw [hr] at ht; cases ht; rw [hp] at hp'; cases hp'
                    obtain ⟨rfl, h1⟩ := h1
                    rw [← shown_iff] at h1
                    exact Or.inl (by rw [h1])
                  · exact Or.inr (Or.inl ⟨n, sub, p', hw, h1⟩)
                · rcases (entry_dir ..).1 he with ⟨rfl, _, _⟩ | he
                  · rw [hs] at h1; cases h1
                  · exact Or.inr (Or.inr ⟨n, sub, h1, he, h2⟩)
            · rename_i hk
              rw [ih r h, key (by
                rintro ⟨p', _, _, ⟨t, ht, hp'⟩, hk'⟩
                rw [hr] at ht; cases ht; rw [hp] at hp'; cases hp'
                exact hk ((contains_iff _ _).2 hk')) hs]

theorem listing_spec (d : Dir) : ∀ (pre : Str) (k : Str) (q : Pkg),
    (k, q) ∈ (listing parse join pre d).getD [] ↔
      ∃ ns d' n sub p, CleanLevel d ns d' ∧ Webapp parse d' n sub p ∧ k = pre ++ joinPath ns n ∧
        Shown join p sub q := by
  induction hn : sizeOf d using Nat.strongRecOn generalizing d with
  | _ N IH =>
    intro pre k q
    cases hl : listing parse join pre d with
    | none =>
      have hc : ¬ Clean d := by
        rw [← listing_isSome parse join pre d, hl]; simp
      simp only [Option.getD_none, List.not_mem_nil, false_iff]
      rintro ⟨ns, d', n, sub, p, h, _⟩
      cases h with
      | top _ h => exact hc h
      | down _ _ _ _ _ h => exact hc h
    | some r =>
      have hc : Clean d := by
        rw [← listing_isSome parse join pre d, hl]; rfl
      rw [Option.getD_some, listing_mem parse join pre d r hl]
      constructor
      · rintro (⟨n, sub, p, hw, h1, h2⟩ | ⟨n, sub, hs, he, h2⟩)
        · exact ⟨[], d, n, sub, p, .top _ hc, hw, h1, h2⟩
        · obtain ⟨ns, d', n', sub', p, h3, h4, h5, h6⟩ := (IH _ (hn ▸ he.size) sub rfl _ _ _).1 h2
          exact ⟨n :: ns, d', n', sub', p, .down _ _ _ _ _ hc hs he h3, h4, by simp [h5, joinPath], h6⟩
      · rintro ⟨ns, d', n, sub, p, h, hw, h1, h2⟩
        cases h with
        | top => exact Or.inl ⟨n, sub, p, hw, h1, h2⟩
        | down _ m sub' ns' _ _ hs he h3 =>
          refine Or.inr ⟨m, sub', hs, he, (IH _ (hn ▸ he.size) sub' rfl _ _ _).2
            ⟨ns', d', n, sub, p, h3, hw, by simp [h1, joinPath], h2⟩⟩

/-- **C77** (exact): for every directory tree, package parser and key: a package is listed under a key
exactly when node_modules can be listed, the key is the path of a webapp directory below it, through any
number of scopes, and every level on that path is clean: each package directory in it has a readable
package.json. -/
theorem C77_exact (listable : Bool) (d : Dir) (k : Str) (q : Pkg) :
    (k, q) ∈ installed parse join listable d ↔
      listable = true ∧ ∃ ns d' n sub p, CleanLevel d ns d' ∧ Webapp parse d' n sub p ∧ k = joinPath ns n ∧
        Shown join p sub q := by
  unfold installed
  cases listable with
  | false => simp
  | true => simpa using listing_spec parse join d [] k q

theorem Level.clean {d d' : Dir} {ns : List Str} (h : Level d ns d')
    (hc : ∀ ms d'', Level d ms d'' → Clean d'') : CleanLevel d ns d' := by
  induction h with
  | top d => exact .top _ (hc _ _ (.top d))
  | down d n sub ns d' hs he _ ih =>
    exact .down _ _ _ _ _ (hc _ _ (.top d)) hs he (ih (fun ms d'' h => hc _ _ (.down _ _ _ _ _ hs he h)))

theorem CleanLevel.level {d d' : Dir} {ns : List Str} (h : CleanLevel d ns d') : Level d ns d' := by
  induction h with
  | top d => exact .top _
  | down d n sub ns d' _ hs he _ ih => exact .down _ _ _ _ _ hs he ih

/-- **C77** (partial): if every package directory, at every level, has a readable package.json, the
listing is exactly the webapps, scoped ones included.  Missing: trees with a package directory that has
none, where webapps are missing from the list (`C77_false`, exactly which: `C77_exact`). -/
theorem C77_listing_partial (d : Dir) (hc : ∀ ns d', Level d ns d' → Clean d') (k : Str) (q : Pkg) :
    (k, q) ∈ installed parse join true d ↔
      ∃ ns d' n sub p, Level d ns d' ∧ Webapp parse d' n sub p ∧ k = joinPath ns n ∧ Shown join p sub q := by
  rw [C77_exact]
  constructor
  · rintro ⟨_, ns, d', n, sub, p, h, r⟩; exact ⟨ns, d', n, sub, p, h.level, r⟩
  · rintro ⟨ns, d', n, sub, p, h, r⟩; exact ⟨rfl, ns, d', n, sub, p, h.clean hc, r⟩

/-- **C77** (soundness, every tree): nothing but webapps is ever listed. -/
theorem C77_sound (listable : Bool) (d : Dir) (k : Str) (q : Pkg) (h : (k, q) ∈ installed parse join listable d) :
    ∃ ns d' n sub p, Level d ns d' ∧ Webapp parse d' n sub p ∧ k = joinPath ns n ∧ Shown join p sub q := by
  obtain ⟨_, ns, d', n, sub, p, h, r⟩ := (C77_exact parse join listable d k q).1 h
  exact ⟨ns, d', n, sub, p, h.level, r⟩

/-- **C77** (one bad directory): if some package directory directly in node_modules has no readable
package.json, the listing is empty, whatever else is installed. -/
theorem C77_empty (listable : Bool) (d : Dir) (h : ¬ Clean d) : installed parse join listable d = [] := by
  apply List.eq_nil_iff_forall_not_mem.2
  rintro ⟨k, q⟩ hm
  obtain ⟨_, ns, d', n, sub, p, hl, _⟩ := (C77_exact parse join listable d k q).1 hm
  cases hl with
  | top _ hc => exact h hc
  | down _ _ _ _ _ hc => exact h hc

/-! ## Lookup -/

/-- A real tree: at every level names are unique and have no slash. -/
structure Real (d : Dir) : Prop where
  unique : ∀ ns d', Level d ns d' → ∀ n l sub l' sub', Entry d' n l sub → Entry d' n l' sub' → sub = sub'
  noSlash : ∀ ns d', Level d ns d' → ∀ n l sub, Entry d' n l sub → slash ∉ n

theorem split_slash (a b x y : Str) (ha : slash ∉ a) (hb : slash ∉ b)
    (h : a ++ [slash] ++ x = b ++ [slash] ++ y) : a = b ∧ x = y := by
  induction a generalizing b with
  | nil =>
    cases b with
    | nil => simpa using h
    | cons c cs =>
      simp only [List.nil_append, List.cons_append, List.cons.injEq] at h
      exact absurd (by rw [← h.1]; simp) hb
  | cons c cs ih =>
    cases b with
    | nil =>
      simp only [List.nil_append, List.cons_append, List.cons.injEq] at h
      exact absurd (by rw [h.1]; simp) ha
    | cons e es =>
      simp only [List.cons_append, List.cons.injEq] at h
      simp only [List.mem_cons, not_or] at ha hb
      obtain ⟨h1, h2⟩ := ih es ha.2 hb.2 (by simpa using h.2)
      exact ⟨by rw [h.1, h1], h2⟩

theorem path_unique (d : Dir) (hr : Real d) (ns ms : List Str) (d' d'' : Dir) (n m : Str) (l l' : Bool)
    (sub sub' : Dir) (h1 : Level d ns d') (h2 : Level d ms d'') (he : Entry d' n l sub)
    (he' : Entry d'' m l' sub') (hk : joinPath ns n = joinPath ms m) : sub = sub' := by
  induction h1 generalizing ms with
  | top d =>
    cases h2 with
    | top =>
      simp only [joinPath] at hk; subst hk
      exact hr.unique _ _ (.top _) _ _ _ _ _ he he'
    | down _ x _ _ _ _ _ _ =>
      have := hr.noSlash _ _ (.top _) _ _ _ he
      simp only [joinPath] at hk
      exact absurd (by rw [hk]; simp) this
  | down d x s xs e hs hx hl ih =>
    cases h2 with
    | top =>
      have := hr.noSlash _ _ (.top _) _ _ _ he'
      simp only [joinPath] at hk
      exact absurd (by rw [← hk]; simp) this
    | down _ y t ys _ hs' hy hl' =>
      simp only [joinPath] at hk
      obtain ⟨rfl, hk2⟩ := split_slash _ _ _ _ (hr.noSlash _ _ (.top _) _ _ _ hx)
        (hr.noSlash _ _ (.top _) _ _ _ hy) hk
      have hst := hr.unique _ _ (.top _) _ _ _ _ _ hx hy
      subst hst
      exact ih ⟨fun ns d' h => hr.unique _ _ (.down _ _ _ _ _ hs hx h),
        fun ns d' h => hr.noSlash _ _ (.down _ _ _ _ _ hs hx h)⟩ ys hl' he hk2

/-- **C77** (lookup): looking up a name in the listing, as the apps page does, finds exactly what is listed
under it: no two directories are listed under one key. -/
theorem C77_lookup (listable : Bool) (d : Dir) (hr : Real d) (k : Str) (q : Pkg) :
    mapGet (installed parse join listable d) k = some q ↔ (k, q) ∈ installed parse join listable d := by
  unfold mapGet
  constructor
  · intro h
    rw [Option.map_eq_some_iff] at h
    obtain ⟨⟨k', q'⟩, hf, rfl⟩ := h
    have hk := List.find?_some hf
    simp only [decide_eq_true_eq] at hk
    subst hk
    simpa using List.mem_of_find?_eq_some hf
  · intro h
    cases hf : List.find? (fun e => decide (e.1 = k)) (installed parse join listable d).reverse with
    | none =>
      rw [List.find?_eq_none] at hf
      exact absurd (decide_eq_true rfl) (hf (k, q) (by simpa using h))
    | some e =>
      obtain ⟨k', q'⟩ := e
      have hk := List.find?_some hf
      simp only [decide_eq_true_eq] at hk
      subst hk
      have hm : (k', q') ∈ installed parse join listable d := by simpa using List.mem_of_find?_eq_some hf
      obtain ⟨ns, d', n, sub, p, hl, hw, hk, hq⟩ := C77_sound parse join listable d _ _ h
      obtain ⟨ms, d'', m, sub', p', hl', hw', hk', hq'⟩ := C77_sound parse join listable d _ _ hm
      obtain ⟨l, he⟩ := hw.entry
      obtain ⟨l', he'⟩ := hw'.entry
      have := path_unique d hr ns ms d' d'' n m l l' sub sub' hl hl' he he' (hk.symm.trans hk')
      subst this
      obtain ⟨t, ht, hp⟩ := hw.json
      obtain ⟨t', ht', hp'⟩ := hw'.json
      rw [← reads_iff] at ht ht'
      rw [ht] at ht'; cases ht'; rw [hp] at hp'; cases hp'
      rw [← shown_iff] at hq hq'
      rw [hq, hq']
      rfl

/-! ## Examples -/

/-- A parser for the examples: the text 1 is a webapp, 2 another package, anything else is not JSON. -/
def exParse (t : Str) : Option Pkg :=
  if t = [1] then some ⟨Signalk.bs "1.0.0", Signalk.bs "a", [], [], [Signalk.bs "x", webapp]⟩
  else if t = [2] then some ⟨[], Signalk.bs "b", [], [], []⟩
  else none

/-- A package directory. -/
def pkgDir (t : Str) : Dir := .file packageJson (some t) .nil

/-- A webapp `a`, a scope with a webapp in it, another package, .bin and a plain file. -/
def exTree : Dir :=
  .dir dotBin true .nil <| .dir (Signalk.bs "@s") true (.dir (Signalk.bs "c") true (pkgDir [1]) .nil) <|
    .dir (Signalk.bs "a") true (.file indexHtml (some []) (pkgDir [1])) <|
    .dir (Signalk.bs "b") true (pkgDir [2]) <| .file (Signalk.bs ".yarn-integrity") (some []) .nil

/-- **C77** is false: with the same webapp installed, a directory without package.json (such as the cache
directories tools put in node_modules) makes the listing empty. -/
theorem C77_false :
    ∃ (parse : Str → Option Pkg) (join : Str → Str → Str) (d : Dir) (n : Str) (sub : Dir) (p : Pkg),
      Webapp parse d n sub p ∧ installed parse join true d = [] := by
  refine ⟨exParse, fun a b => a ++ b, .dir (Signalk.bs ".cache") true .nil exTree, Signalk.bs "a",
    .file indexHtml (some []) (pkgDir [1]),
    ⟨Signalk.bs "1.0.0", Signalk.bs "a", [], [], [Signalk.bs "x", webapp]⟩, ?_, ?_⟩
  rotate_left
  · exact C77_empty _ _ _ _ (fun h => by
      have := h (Signalk.bs ".cache") true .nil (.here _ _ _ _) (by decide +kernel) (by decide +kernel)
      obtain ⟨t, ht⟩ := this
      cases ht)
  · refine ⟨⟨true, ?_⟩, by decide +kernel, by decide +kernel, ⟨[1], (reads_iff _ _ _).1 (by decide +kernel), by decide +kernel⟩,
      by decide +kernel⟩
    exact .skipDir _ _ _ _ _ _ _ (.skipDir _ _ _ _ _ _ _ (.skipDir _ _ _ _ _ _ _ (.here _ _ _ _)))

-- non-vacuity: the example tree is listed, with the scoped package and the locations
example : (installed exParse (fun a b => a ++ b) true exTree).map (fun e => (e.1, e.2.location)) =
    [(Signalk.bs "@s/c", Signalk.bs "/a/public"), (Signalk.bs "a", Signalk.bs "/a")] := by decide +kernel

end Argo.Packages
