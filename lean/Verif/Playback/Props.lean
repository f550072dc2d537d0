import Verif.Playback.Agree
import Verif.Playback.Model
import Verif.Iface.File
import Verif.Float.Text

set_option autoImplicit false

/-! # C125: what is in a line of a file that is played back -/

namespace Argo.Playback

open Argo
open Argo.Json (Json isDigit Reads)
open Argo.Signalk (bs)
open Argo.Nmea2k (CanBoat CanBoatParsed Pgn fromCanBoat)
open Argo.Nmea2k.Spec (mapGet)

/-! ## Specification -/

/-- A member has the name, in upper or lower case. -/
def Named (key : String) (m : List Char × Json) : Prop := m.1.map fold = key.toList

instance (key : String) (m : List Char × Json) : Decidable (Named key m) := by unfold Named; infer_instance

/-- The number that decimal digits stand for. -/
def digitsValue (t : List Byte) : Nat := t.foldl (fun n b => 10 * n + (b.toNat - 48)) 0

/-- The value is the number `n` written with digits only, and has at most `bits` bits. -/
def Fits (bits : Nat) (v : Json) (n : Nat) : Prop :=
  ∃ t, v = .num t ∧ (∀ b ∈ t, isDigit b = true) ∧ n = digitsValue t ∧ n < 2 ^ bits

/-- `n` is the number of the last member with that name that fits, 0 if there is none. -/
def LastFits (bits : Nat) (key : String) (ms : List (List Char × Json)) (n : Nat) : Prop :=
  (∃ pre m post, ms = pre ++ m :: post ∧ Named key m ∧ Fits bits m.2 n ∧ ∀ x ∈ post, Named key x → ∀ k, ¬ Fits bits x.2 k) ∨
  ((∀ m ∈ ms, Named key m → ∀ k, ¬ Fits bits m.2 k) ∧ n = 0)

/-- `v` is the last value under the name in the objects that are members `fields`, and no `null` comes after it. -/
def LastField (ms : List (List Char × Json)) (name : List Char) (v : Json) : Prop :=
  ∃ pre m post fs a b, ms = pre ++ m :: post ∧ Named "fields" m ∧ m.2 = .obj fs ∧ fs = a ++ (name, v) :: b ∧ (∀ x ∈ b, x.1 ≠ name) ∧
    ∀ x ∈ post, Named "fields" x → x.2 ≠ .null ∧ ∀ gs, x.2 = .obj gs → ∀ y ∈ gs, y.1 ≠ name

/-- What `json.Unmarshal` leaves, with the map in any order; `f` gives the Go value of a JSON value. -/
structure Decodes {α : Type} (limit : Option Nat) (f : Json → α) (line : List Byte) (c : CanBoat α) : Prop where
  priority : c.priority = UInt8.ofNat (unmarshal limit line).prio
  source : c.source = UInt8.ofNat (unmarshal limit line).src
  destination : c.destination = UInt8.ofNat (unmarshal limit line).dst
  pgn : c.pgn = (unmarshal limit line).pgn
  fields : c.fields.Perm ((unmarshal limit line).fields.map fun e => (String.ofList e.1, f e.2))

/-- A member of the header in its usual form: a decimal number that fits, or nothing (then 0). -/
def Entry (ms : List (List Char × Json)) (key : String) (max n : Nat) : Prop :=
  ((key.toList, Json.num (bs (toString n))) ∈ ms ∧ n ≤ max) ∨ ((∀ m ∈ ms, ¬ Named key m) ∧ n = 0)

/-- A line as CanBoat's analyzer writes them: a JSON object with a header and fields, no name twice. -/
structure Recorded (line : List Byte) (prio src dst pgn : Nat) (fs ms : List (List Char × Json)) : Prop where
  reads : Reads line (.obj ms)
  once : ∀ key ∈ ["prio", "src", "dst", "pgn", "fields"], (ms.filter fun m => Named key m).length ≤ 1
  prio : Entry ms "prio" 255 prio
  src : Entry ms "src" 255 src
  dst : Entry ms "dst" 255 dst
  pgn : Entry ms "pgn" (2 ^ 32 - 1) pgn
  fields : ("fields".toList, Json.obj fs) ∈ ms ∨ ((∀ m ∈ ms, ¬ Named "fields" m) ∧ fs = [])
  distinct : (fs.map Prod.fst).Nodup

/-! ## Storing -/

theorem keyOf_iff (k : List Char) (key : String) (x : Key) (h : (key, x) ∈ keys) : keyOf k = some x ↔ k.map fold = key.toList := by
  unfold keyOf
  generalize k.map fold = w
  simp only [keys, List.mem_cons, List.not_mem_nil, or_false, Prod.mk.injEq] at h
  have hd : ∀ a ∈ keys, ∀ b ∈ keys, a.1.toList = b.1.toList → a = b := by decide +kernel
  have hmem : (key, x) ∈ keys := by simp only [keys, List.mem_cons, List.not_mem_nil, or_false, Prod.mk.injEq]; exact h
  constructor
  · intro hk
    rw [Option.map_eq_some_iff] at hk
    obtain ⟨e, he, hx⟩ := hk
    have h1 := List.mem_of_find?_eq_some he
    have h2 := List.find?_some he
    simp only [decide_eq_true_eq] at h2
    rw [h2]
    have hs : ∀ a ∈ keys, ∀ b ∈ keys, a.2 = b.2 → a = b := by decide +kernel
    rw [hs e h1 (key, x) hmem hx]
  · intro hw
    rw [Option.map_eq_some_iff]
    cases hf : keys.find? (fun e => decide (w = e.1.toList)) with
    | none =>
      rw [List.find?_eq_none] at hf
      exact absurd (hf _ hmem) (by simp [hw])
    | some e =>
      refine ⟨e, rfl, ?_⟩
      have h1 := List.mem_of_find?_eq_some hf
      have h2 := List.find?_some hf
      simp only [decide_eq_true_eq] at h2
      rw [hd e h1 (key, x) hmem (by rw [← h2, hw])]

theorem store_uint {bits : Nat} {key : String} {x : Key} (h : (key, x) ∈ keys) (get : Target → Nat)
    (hx : ∀ t m, keyOf m.1 = some x → get (store t m) = setUint bits (get t) m.2)
    (hn : ∀ t m, keyOf m.1 ≠ some x → get (store t m) = get t) (t : Target) (m : List Char × Json) :
    get (store t m) = if Named key m then setUint bits (get t) m.2 else get t := by
  by_cases hk : keyOf m.1 = some x
  · rw [if_pos (show Named key m from (keyOf_iff _ _ _ h).mp hk), hx t m hk]
  · rw [if_neg (show ¬ Named key m from fun hc => hk ((keyOf_iff _ _ _ h).mpr hc)), hn t m hk]

theorem setUint_fits {bits : Nat} {v : Json} {n : Nat} (old : Nat) (h : Fits bits v n) : setUint bits old v = n := by
  obtain ⟨t, rfl, h1, rfl, h2⟩ := h
  unfold setUint uintText
  simp only
  rw [if_pos (List.all_eq_true.mpr h1)]
  show (if digitsValue t < 2 ^ bits then some (digitsValue t) else none).getD old = _
  rw [if_pos h2]
  rfl

theorem setUint_not {bits : Nat} {v : Json} (old : Nat) (h : ∀ n, ¬ Fits bits v n) : setUint bits old v = old := by
  unfold setUint
  cases v with
  | num t =>
    simp only [uintText]
    split
    · rename_i ha
      split
      · rename_i hb
        exact absurd ⟨t, rfl, List.all_eq_true.mp ha, rfl, hb⟩ (h _)
      · rfl
    · rfl
  | _ => rfl

theorem last_fits {bits : Nat} {key : String} {get : Target → Nat} (h0 : get Target.zero = 0)
    (hs : ∀ t m, get (store t m) = if Named key m then setUint bits (get t) m.2 else get t) (ms : List (List Char × Json)) :
    LastFits bits key ms (get (ms.foldl store Target.zero)) := by
  generalize hr : ms.reverse = r
  induction r generalizing ms with
  | nil =>
    rw [List.reverse_eq_nil_iff] at hr
    subst hr
    exact Or.inr ⟨by simp, h0⟩
  | cons m r ih =>
    have hms : ms = r.reverse ++ [m] := by rw [← List.reverse_cons, ← hr, List.reverse_reverse]
    subst hms
    have ih := ih r.reverse (by simp)
    rw [List.foldl_append, List.foldl_cons, List.foldl_nil, hs]
    by_cases hf : Named key m ∧ ∃ n, Fits bits m.2 n
    · obtain ⟨hk, n, hn⟩ := hf
      rw [if_pos hk, setUint_fits _ hn]
      exact Or.inl ⟨r.reverse, m, [], rfl, hk, hn, by simp⟩
    · have e : (if Named key m then setUint bits (get (r.reverse.foldl store Target.zero)) m.2 else get (r.reverse.foldl store Target.zero)) =
          get (r.reverse.foldl store Target.zero) := by
        split
        · rename_i hk
          exact setUint_not _ (fun n hn => hf ⟨hk, n, hn⟩)
        · rfl
      rw [e]
      rcases ih with ⟨pre, x, post, he, h1, h2, h3⟩ | ⟨h1, h2⟩
      · refine Or.inl ⟨pre, x, post ++ [m], by rw [he]; simp, h1, h2, ?_⟩
        intro y hy hk n hn
        rcases List.mem_append.mp hy with hy | hy
        · exact h3 y hy hk n hn
        · rw [List.mem_singleton.mp hy] at hk hn; exact hf ⟨hk, n, hn⟩
      · refine Or.inr ⟨?_, h2⟩
        intro y hy hk n hn
        rcases List.mem_append.mp hy with hy | hy
        · exact h1 y hy hk n hn
        · rw [List.mem_singleton.mp hy] at hk hn; exact hf ⟨hk, n, hn⟩

/-- The header after all members. -/
theorem header_exact (ms : List (List Char × Json)) :
    LastFits 8 "prio" ms (ms.foldl store Target.zero).prio ∧ LastFits 8 "src" ms (ms.foldl store Target.zero).src ∧
    LastFits 8 "dst" ms (ms.foldl store Target.zero).dst ∧ LastFits 32 "pgn" ms (ms.foldl store Target.zero).pgn := by
  have key : ∀ (x : Key) (t : Target) (m : List Char × Json), keyOf m.1 ≠ some x → (keyOf m.1 = none ∨ ∃ y, keyOf m.1 = some y ∧ y ≠ x) := by
    intro x t m h
    cases hk : keyOf m.1 with
    | none => exact Or.inl rfl
    | some y => exact Or.inr ⟨y, rfl, fun e => h (by rw [hk, e])⟩
  refine ⟨last_fits rfl (store_uint (x := .prio) (by decide +kernel) Target.prio ?_ ?_) ms,
    last_fits rfl (store_uint (x := .src) (by decide +kernel) Target.src ?_ ?_) ms,
    last_fits rfl (store_uint (x := .dst) (by decide +kernel) Target.dst ?_ ?_) ms,
    last_fits rfl (store_uint (x := .pgn) (by decide +kernel) Target.pgn ?_ ?_) ms⟩ <;>
  · intro t m hk
    unfold store
    first
      | rw [hk]
      | (rcases key _ t m hk with h | ⟨y, h, hy⟩
         · rw [h]
         · rw [h]; cases y <;> first | rfl | exact absurd rfl hy)

/-! ## The map -/

/-- The value under a name. -/
def lookup (d : List (List Char × Json)) (k : List Char) : Option Json := mapGet d k

theorem put_lookup (d : List (List Char × Json)) (m : List Char × Json) (k : List Char) :
    lookup (put d m) k = if k = m.1 then some m.2 else lookup d k := by
  unfold put lookup mapGet
  split
  · rename_i h
    induction d with
    | nil => simp at h
    | cons e d ih =>
      simp only [List.map_cons]
      by_cases he : e.1 = m.1
      · simp only [he, if_true]
        by_cases hk : k = m.1
        · subst hk; simp
        · rw [if_neg hk, List.find?_cons_of_neg (by simpa using fun h => hk h.symm),
            List.find?_cons_of_neg (by rw [he]; simpa using fun h => hk h.symm)]
          by_cases hd : d.any (fun e => decide (e.1 = m.1)) = true
          · have := ih hd
            rw [if_neg hk] at this
            exact this
          · congr 2
            conv => rhs; rw [← List.map_id d]
            apply List.map_congr_left
            intro x hx
            rw [if_neg]; rfl
            intro hxk
            exact hd (List.any_eq_true.mpr ⟨x, hx, by simpa using hxk⟩)
      · rw [if_neg he]
        by_cases hek : e.1 = k
        · rw [List.find?_cons_of_pos (by simpa using hek), List.find?_cons_of_pos (by simpa using hek),
            if_neg (by intro h; exact he (hek.trans h))]
        · rw [List.find?_cons_of_neg (by simpa using hek), List.find?_cons_of_neg (by simpa using hek)]
          refine ih ?_
          simpa [he] using h
  · rename_i h
    rw [List.find?_append]
    by_cases hk : k = m.1
    · subst hk
      have : d.find? (fun e => decide (e.1 = m.1)) = none := by
        rw [List.find?_eq_none]
        intro x hx hxk
        exact h (List.any_eq_true.mpr ⟨x, hx, hxk⟩)
      rw [this, if_pos rfl]; simp
    · rw [if_neg hk]
      have : List.find? (fun e => decide (e.1 = k)) [m] = none := by
        simp; exact fun h => hk h.symm
      rw [this, Option.or_none]

theorem put_keys (d : List (List Char × Json)) (m : List Char × Json) (h : (d.map Prod.fst).Nodup) : ((put d m).map Prod.fst).Nodup := by
  unfold put
  split
  · rw [List.map_map, show (d.map (Prod.fst ∘ fun e => if e.1 = m.1 then m else e)) = d.map Prod.fst from ?_]
    · exact h
    · apply List.map_congr_left
      intro e _
      simp only [Function.comp]
      split
      · rename_i he; exact he.symm
      · rfl
  · rename_i hn
    rw [List.map_append, List.nodup_append]
    refine ⟨h, by simp, ?_⟩
    intro a ha b hb hab
    simp only [List.map_cons, List.map_nil, List.mem_singleton] at hb
    subst hab hb
    obtain ⟨e, he, he'⟩ := List.mem_map.mp ha
    exact hn (List.any_eq_true.mpr ⟨e, he, by simpa using he'⟩)

theorem puts_keys (l d : List (List Char × Json)) (h : (d.map Prod.fst).Nodup) : ((l.foldl put d).map Prod.fst).Nodup := by
  induction l generalizing d with
  | nil => exact h
  | cons m l ih => exact ih _ (put_keys d m h)

/-- The last of the new values, or the old one. -/
theorem puts_lookup (l d : List (List Char × Json)) (k : List Char) (v : Json) :
    lookup (l.foldl put d) k = some v ↔
      (∃ a b, l = a ++ (k, v) :: b ∧ ∀ x ∈ b, x.1 ≠ k) ∨ ((∀ x ∈ l, x.1 ≠ k) ∧ lookup d k = some v) := by
  induction l generalizing d with
  | nil => simp
  | cons m l ih =>
    rw [List.foldl_cons, ih, put_lookup]
    constructor
    · rintro (⟨a, b, rfl, h⟩ | ⟨h1, h2⟩)
      · exact Or.inl ⟨m :: a, b, rfl, h⟩
      · split at h2
        · rename_i hk
          have hm : m = (k, v) := by rw [hk, ← Option.some.inj h2]
          exact Or.inl ⟨[], l, by rw [hm]; rfl, h1⟩
        · rename_i hk
          refine Or.inr ⟨?_, h2⟩
          intro x hx
          rcases List.mem_cons.mp hx with rfl | hx
          · exact fun h => hk h.symm
          · exact h1 x hx
    · rintro (⟨a, b, he, h⟩ | ⟨h1, h2⟩)
      · cases a with
        | nil =>
          rw [List.nil_append] at he
          obtain ⟨e1, e2⟩ := List.cons.inj he
          subst e1 e2
          exact Or.inr ⟨h, by simp⟩
        | cons x a =>
          rw [List.cons_append] at he
          obtain ⟨e1, e2⟩ := List.cons.inj he
          exact Or.inl ⟨a, b, e2, h⟩
      · exact Or.inr ⟨fun x hx => h1 x (List.mem_cons_of_mem _ hx), by
          rw [if_neg (fun h => h1 m (by simp) h.symm)]; exact h2⟩

theorem store_fields (t : Target) (m : List Char × Json) :
    (store t m).fields = if Named "fields" m then setMap t.fields m.2 else t.fields := by
  have hi := keyOf_iff m.1 "fields" .fields (by decide +kernel)
  by_cases hk : keyOf m.1 = some .fields
  · rw [if_pos (show Named "fields" m from hi.mp hk)]; unfold store; rw [hk]
  · rw [if_neg (show ¬ Named "fields" m from fun hc => hk (hi.mpr hc))]
    unfold store
    cases hk2 : keyOf m.1 with
    | none => rfl
    | some y => cases y <;> first | rfl | exact absurd hk2 hk

theorem fields_keys (ms : List (List Char × Json)) : (((ms.foldl store Target.zero).fields).map Prod.fst).Nodup := by
  have key : ∀ t : Target, (t.fields.map Prod.fst).Nodup → (((ms.foldl store t).fields).map Prod.fst).Nodup := by
    induction ms with
    | nil => exact fun _ h => h
    | cons m ms ih =>
      intro t h
      rw [List.foldl_cons]
      apply ih
      rw [store_fields]
      split
      · unfold setMap
        split
        · exact puts_keys _ _ h
        · simp
        · exact h
      · exact h
  exact key _ List.nodup_nil

/-- The map after all members. -/
theorem fields_exact (ms : List (List Char × Json)) (name : List Char) (v : Json) :
    lookup (ms.foldl store Target.zero).fields name = some v ↔ LastField ms name v := by
  generalize hr : ms.reverse = r
  induction r generalizing ms with
  | nil =>
    rw [List.reverse_eq_nil_iff] at hr
    subst hr
    constructor
    · intro h; cases h
    · rintro ⟨pre, m, post, fs, a, b, h, _⟩; simp at h
  | cons m r ih =>
    have hms : ms = r.reverse ++ [m] := by rw [← List.reverse_cons, ← hr, List.reverse_reverse]
    subst hms
    have ih := ih r.reverse (by simp)
    rw [List.foldl_append, List.foldl_cons, List.foldl_nil, store_fields]
    generalize hold : (r.reverse.foldl store Target.zero).fields = old at ih ⊢
    -- a last value that is not in the last member
    have before : (Named "fields" m → m.2 ≠ .null ∧ ∀ gs, m.2 = .obj gs → ∀ y ∈ gs, y.1 ≠ name) →
        (LastField r.reverse name v → LastField (r.reverse ++ [m]) name v) := by
      rintro hc ⟨pre, x, post, fs, a, b, h1, h2, h3, h4, h5, h6⟩
      refine ⟨pre, x, post ++ [m], fs, a, b, by rw [h1]; simp, h2, h3, h4, h5, ?_⟩
      intro y hy
      rcases List.mem_append.mp hy with hy | hy
      · exact h6 y hy
      · rw [List.mem_singleton.mp hy]; exact hc
    have after : LastField (r.reverse ++ [m]) name v →
        (∃ fs a b, Named "fields" m ∧ m.2 = .obj fs ∧ fs = a ++ (name, v) :: b ∧ ∀ x ∈ b, x.1 ≠ name) ∨
        ((Named "fields" m → m.2 ≠ .null ∧ ∀ gs, m.2 = .obj gs → ∀ y ∈ gs, y.1 ≠ name) ∧ LastField r.reverse name v) := by
      rintro ⟨pre, x, post, fs, a, b, h1, h2, h3, h4, h5, h6⟩
      rcases List.eq_nil_or_concat post with rfl | ⟨post', z, rfl⟩
      · obtain ⟨e1, e2⟩ := List.append_inj' h1 rfl
        rw [List.cons.injEq] at e2
        rw [← e2.1] at h2 h3
        exact Or.inl ⟨fs, a, b, h2, h3, h4, h5⟩
      · rw [List.concat_eq_append] at h1 h6
        rw [show pre ++ x :: (post' ++ [z]) = (pre ++ x :: post') ++ [z] by simp] at h1
        obtain ⟨e1, e2⟩ := List.append_inj' h1 rfl
        rw [List.cons.injEq] at e2
        rw [← e2.1] at h6
        exact Or.inr ⟨h6 m (by simp), pre, x, post', fs, a, b, e1, h2, h3, h4, h5, fun y hy => h6 y (List.mem_append_left _ hy)⟩
    by_cases hn : Named "fields" m
    · rw [if_pos hn]
      unfold setMap
      cases hv : m.2 with
      | obj fs =>
        simp only
        rw [puts_lookup, ih]
        constructor
        · rintro (⟨a, b, h1, h2⟩ | ⟨h1, h2⟩)
          · exact ⟨r.reverse, m, [], fs, a, b, rfl, hn, hv, h1, h2, by simp⟩
          · refine before (fun _ => ⟨by rw [hv]; simp, ?_⟩) h2
            intro gs hgs
            rw [hv, Json.obj.injEq] at hgs
            rw [← hgs]; exact h1
        · intro h
          rcases after h with ⟨fs', a, b, _, h2, h3, h4⟩ | ⟨h1, h2⟩
          · rw [hv, Json.obj.injEq] at h2
            rw [h2]; exact Or.inl ⟨a, b, h3, h4⟩
          · exact Or.inr ⟨(h1 hn).2 fs hv, h2⟩
      | null =>
        simp only
        constructor
        · intro h; cases h
        · intro h
          rcases after h with ⟨fs', a, b, _, h2, _⟩ | ⟨h1, _⟩
          · rw [hv] at h2; cases h2
          · exact absurd hv (h1 hn).1
      | _ =>
        simp only
        rw [ih]
        constructor
        · exact before (fun _ => ⟨by rw [hv]; simp, fun gs hgs => by rw [hv] at hgs; cases hgs⟩)
        · intro h
          rcases after h with ⟨fs', a, b, _, h2, _⟩ | ⟨_, h⟩
          · rw [hv] at h2; cases h2
          · exact h
    · rw [if_neg hn, ih]
      constructor
      · exact before (fun h => absurd h hn)
      · intro h
        rcases after h with ⟨_, _, _, h1, _⟩ | ⟨_, h⟩
        · exact absurd h1 hn
        · exact h

/-! ## Lines in the usual form -/

theorem one_only {key : String} {ms : List (List Char × Json)} (h : (ms.filter fun m => Named key m).length ≤ 1) {m m' : List Char × Json}
    (hm : m ∈ ms) (hm' : m' ∈ ms) (hn : Named key m) (hn' : Named key m') : m = m' := by
  have h1 : m ∈ ms.filter fun m => Named key m := List.mem_filter.mpr ⟨hm, by simpa using hn⟩
  have h2 : m' ∈ ms.filter fun m => Named key m := List.mem_filter.mpr ⟨hm', by simpa using hn'⟩
  generalize ms.filter (fun m => decide (Named key m)) = l at h h1 h2
  match l, h, h1, h2 with
  | [x], _, h1, h2 => rw [List.mem_singleton.mp h1, List.mem_singleton.mp h2]

theorem named_self : ∀ key ∈ ["prio", "src", "dst", "pgn", "fields"], key.toList.map fold = key.toList := by decide +kernel

theorem fits_nat {bits n : Nat} (h : n < 2 ^ bits) : Fits bits (.num (bs (toString n))) n := by
  refine ⟨_, rfl, ?_, (Float.digitsVal_nat n).symm, h⟩
  obtain ⟨b, l, e, h1, h2, _⟩ := Json.dec_shape n
  rw [e]
  intro x hx
  rcases List.mem_cons.mp hx with rfl | hx
  · exact h1
  · exact h2 x hx

theorem fits_unique {bits n k : Nat} {v : Json} (h : Fits bits v n) (h' : Fits bits v k) : n = k := by
  obtain ⟨t, rfl, _, rfl, _⟩ := h
  obtain ⟨t', e, _, rfl, _⟩ := h'
  rw [Json.num.inj e]

theorem entry_last {bits max n x : Nat} {key : String} {ms : List (List Char × Json)} (hk : key ∈ ["prio", "src", "dst", "pgn", "fields"])
    (hmax : max < 2 ^ bits) (ho : (ms.filter fun m => Named key m).length ≤ 1) (he : Entry ms key max n) (hl : LastFits bits key ms x) : x = n := by
  rcases he with ⟨hm, hn⟩ | ⟨ha, rfl⟩
  · have hnm : Named key (key.toList, Json.num (bs (toString n))) := named_self key hk
    have hf := fits_nat (show n < 2 ^ bits by omega)
    rcases hl with ⟨pre, m, post, rfl, h1, h2, _⟩ | ⟨h, _⟩
    · have := one_only ho (show m ∈ pre ++ m :: post by simp) hm h1 hnm
      rw [this] at h2
      exact fits_unique h2 hf
    · exact absurd hf (h _ hm hnm n)
  · rcases hl with ⟨pre, m, post, rfl, h1, _⟩ | ⟨_, h⟩
    · exact absurd h1 (ha m (by simp))
    · exact h

theorem entry_field {ms fs : List (List Char × Json)} (ho : (ms.filter fun m => Named "fields" m).length ≤ 1)
    (hf : ("fields".toList, Json.obj fs) ∈ ms ∨ ((∀ m ∈ ms, ¬ Named "fields" m) ∧ fs = [])) (hd : (fs.map Prod.fst).Nodup)
    (name : List Char) (v : Json) : LastField ms name v ↔ (name, v) ∈ fs := by
  have hnm : Named "fields" ("fields".toList, Json.obj fs) := named_self "fields" (by decide)
  constructor
  · rintro ⟨pre, m, post, gs, a, b, rfl, h2, h3, h4, _⟩
    rcases hf with hf | ⟨hf, _⟩
    · have := one_only ho (show m ∈ pre ++ m :: post by simp) hf h2 hnm
      rw [this, Json.obj.injEq] at h3
      rw [h3, h4]; simp
    · exact absurd h2 (hf m (by simp))
  · intro hv
    rcases hf with hf | ⟨_, rfl⟩
    · obtain ⟨pre, post, rfl⟩ := List.append_of_mem hf
      obtain ⟨a, b, rfl⟩ := List.append_of_mem hv
      refine ⟨pre, _, post, _, a, b, rfl, hnm, rfl, rfl, ?_, ?_⟩
      · intro x hx hxn
        rw [List.map_append, List.map_cons, List.nodup_append] at hd
        have hm := List.mem_map_of_mem (f := Prod.fst) hx
        rw [hxn] at hm
        exact (List.nodup_cons.mp hd.2.1).1 hm
      · intro x hx hxn
        exfalso
        rw [List.filter_append, List.filter_cons_of_pos (by simpa using hnm), List.length_append, List.length_cons] at ho
        have : x ∈ post.filter fun m => Named "fields" m := List.mem_filter.mpr ⟨hx, by simpa using hxn⟩
        have := List.length_pos_of_mem this
        omega
    · cases hv

end Argo.Playback
