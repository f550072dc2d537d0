import Verif.Main.Model
import Verif.Nmea2k.Import
import Mathlib.Data.String.Basic
import Mathlib.Data.List.Sort

set_option autoImplicit false

/-! # C67 (statistics), C68 (display filter), C81 (outputs of the consumer) -/

namespace Argo.Main

open Argo

/-! ## Specification -/

/-- What `sort.Sort` promises: the same elements, none followed by a smaller one. -/
def Sorts (sort : List String → List String) : Prop :=
  ∀ l, (sort l).Perm l ∧ (sort l).Pairwise (fun a b => ¬ b < a)

/-- A statistics state says the truth about a history of PGNs: a counter for every PGN seen, holding the
number of times it was seen (a 64-bit counter), and no other; the display list has exactly the PGNs seen,
in (textual) order, each once. -/
structure Truthful (history : List Nat) (s : Stats) : Prop where
  seen : ∀ p ∈ history, mapGet s.log (toString p) = some (UInt64.ofNat (history.count p))
  unseen : ∀ k, (∀ p ∈ history, k ≠ toString p) → mapGet s.log k = none
  keys : (s.log.map Prod.fst).Nodup
  list : ∀ k, k ∈ s.pgns ↔ ∃ p ∈ history, k = toString p
  nodup : s.pgns.Nodup
  sorted : s.pgns.Pairwise (· < ·)

/-! ## Maps -/

theorem toString_inj {a b : Nat} (h : toString a = toString b) : a = b := by
  have : toString (a : Int) = toString (b : Int) := h
  exact_mod_cast Nmea2k.toString_int_injective this

theorem mapGet_set_same (m : List (String × UInt64)) (k : String) (v : UInt64) :
    mapGet (mapSet m k v) k = some v := by
  unfold mapGet mapSet
  split
  · rename_i h
    induction m with
    | nil => simp at h
    | cons e m ih =>
      rw [List.map_cons]
      by_cases he : e.1 = k
      · simp [he]
      · rw [if_neg he, List.find?_cons_of_neg (by simpa using he)]
        exact ih (by simpa [he] using h)
  · rename_i h
    rw [List.find?_append]
    have : m.find? (fun e => decide (e.1 = k)) = none := by
      rw [List.find?_eq_none]
      intro x hx
      simp only [List.any_eq_true, not_exists, not_and] at h
      exact h x hx
    rw [this]; simp

theorem mapGet_set_other (m : List (String × UInt64)) {k k' : String} (v : UInt64) (hk : k' ≠ k) :
    mapGet (mapSet m k v) k' = mapGet m k' := by
  unfold mapGet mapSet
  split
  · rename_i h
    clear h
    induction m with
    | nil => rfl
    | cons e m ih =>
      rw [List.map_cons]
      by_cases he : e.1 = k
      · rw [if_pos he, List.find?_cons_of_neg (by simpa using Ne.symm hk),
          List.find?_cons_of_neg (by rw [he]; simpa using Ne.symm hk), ih]
      · rw [if_neg he]
        by_cases he' : e.1 = k'
        · rw [List.find?_cons_of_pos (by simpa using he'), List.find?_cons_of_pos (by simpa using he')]
        · rw [List.find?_cons_of_neg (by simpa using he'), List.find?_cons_of_neg (by simpa using he'), ih]
  · rw [List.find?_append]
    cases m.find? (fun e => decide (e.1 = k')) with
    | some _ => rfl
    | none =>
      rw [List.find?_cons_of_neg (by simpa using Ne.symm hk)]
      rfl

theorem mapSet_keys (m : List (String × UInt64)) (k : String) (v : UInt64) :
    (mapSet m k v).map Prod.fst = if k ∈ m.map Prod.fst then m.map Prod.fst else m.map Prod.fst ++ [k] := by
  unfold mapSet
  by_cases h : k ∈ m.map Prod.fst
  · rw [if_pos h, if_pos]
    · rw [List.map_map]
      apply List.map_congr_left
      intro e _
      simp only [Function.comp]
      split <;> simp_all
    · obtain ⟨e, he, rfl⟩ := List.mem_map.mp h
      exact List.any_eq_true.mpr ⟨e, he, by simp⟩
  · rw [if_neg h, if_neg]
    · simp
    · intro h'
      obtain ⟨e, he, hk⟩ := List.any_eq_true.mp h'
      exact h (List.mem_map.mpr ⟨e, he, by simpa using hk⟩)

theorem mapGet_none_iff (m : List (String × UInt64)) (k : String) :
    mapGet m k = none ↔ k ∉ m.map Prod.fst := by
  unfold mapGet
  rw [Option.map_eq_none_iff, List.find?_eq_none]
  constructor
  · intro h hk
    obtain ⟨e, he, rfl⟩ := List.mem_map.mp hk
    exact h e he (by simp)
  · intro h e he hk
    exact h (List.mem_map.mpr ⟨e, he, by simpa using hk⟩)

/-! ## C67 -/

theorem truthful_empty : Truthful [] Stats.empty :=
  ⟨by simp, fun _ _ => rfl, by simp [Stats.empty], by simp [Stats.empty], by simp [Stats.empty],
    by simp [Stats.empty]⟩

theorem truthful_count {sort : List String → List String} (hs : Sorts sort) {h : List Nat} {s : Stats}
    (ht : Truthful h s) (p : Nat) : Truthful (h ++ [p]) (count sort s p) := by
  by_cases hp : p ∈ h
  · have hc : count sort s p =
        { s with log := mapSet s.log (toString p) (UInt64.ofNat (h.count p) + 1) } := by
      simp only [count, ht.seen p hp]
    rw [hc]
    refine ⟨?_, ?_, ?_, ?_, ht.nodup, ht.sorted⟩
    · intro q hq
      by_cases hqp : q = p
      · subst hqp
        rw [mapGet_set_same]
        simp [List.count_append, UInt64.ofNat_add]
      · have hqs : toString q ≠ toString p := fun e => hqp (toString_inj e)
        have hq' : q ∈ h := by simpa [hqp] using hq
        rw [mapGet_set_other _ _ hqs, ht.seen q hq', List.count_append]
        simp [Ne.symm hqp]
    · intro k hk
      rw [mapGet_set_other _ _ (hk p (by simp))]
      exact ht.unseen k (fun q hq => hk q (by simp [hq]))
    · simp only [mapSet_keys]
      split
      · exact ht.keys
      · rename_i hn
        exact absurd ((mapGet_none_iff _ _).mpr hn) (by rw [ht.seen p hp]; simp)
    · intro k
      rw [ht.list]
      constructor
      · rintro ⟨q, hq, rfl⟩; exact ⟨q, by simp [hq], rfl⟩
      · rintro ⟨q, hq, rfl⟩
        rcases List.mem_append.mp hq with hq | hq
        · exact ⟨q, hq, rfl⟩
        · rw [List.mem_singleton.mp hq]; exact ⟨p, hp, rfl⟩
  · have hnew : ∀ q ∈ h, toString p ≠ toString q := fun q hq e => hp (toString_inj e ▸ hq)
    have hnone : mapGet s.log (toString p) = none := ht.unseen _ hnew
    have hc : count sort s p =
        { log := mapSet s.log (toString p) 1, pgns := sort (s.pgns ++ [toString p]) } := by
      simp only [count, hnone]
    rw [hc]
    obtain ⟨hperm, hord⟩ := hs (s.pgns ++ [toString p])
    have hnl : toString p ∉ s.pgns := by
      rw [ht.list]; rintro ⟨q, hq, e⟩; exact hnew q hq e
    have hnd : (sort (s.pgns ++ [toString p])).Nodup := by
      refine hperm.nodup_iff.mpr ?_
      rw [List.nodup_append]
      exact ⟨ht.nodup, by simp, fun a ha b hb => by
        rw [List.mem_singleton.mp hb]; rintro rfl; exact hnl ha⟩
    refine ⟨?_, ?_, ?_, ?_, hnd, ?_⟩
    · intro q hq
      by_cases hqp : q = p
      · subst hqp
        rw [mapGet_set_same]
        simp [List.count_append, List.count_eq_zero_of_not_mem hp]
      · have hqs : toString q ≠ toString p := fun e => hqp (toString_inj e)
        have hq' : q ∈ h := by simpa [hqp] using hq
        rw [mapGet_set_other _ _ hqs, ht.seen q hq', List.count_append]
        simp [Ne.symm hqp]
    · intro k hk
      rw [mapGet_set_other _ _ (hk p (by simp))]
      exact ht.unseen k (fun q hq => hk q (by simp [hq]))
    · simp only [mapSet_keys]
      rw [if_neg ((mapGet_none_iff _ _).mp hnone), List.nodup_append]
      exact ⟨ht.keys, by simp, fun a ha b hb => by
        rw [List.mem_singleton.mp hb]; rintro rfl; exact (mapGet_none_iff _ _).mp hnone ha⟩
    · intro k
      rw [hperm.mem_iff, List.mem_append, ht.list, List.mem_singleton]
      constructor
      · rintro (⟨q, hq, rfl⟩ | rfl)
        · exact ⟨q, by simp [hq], rfl⟩
        · exact ⟨p, by simp, rfl⟩
      · rintro ⟨q, hq, rfl⟩
        rcases List.mem_append.mp hq with hq | hq
        · exact Or.inl ⟨q, hq, rfl⟩
        · rw [List.mem_singleton.mp hq]; exact Or.inr rfl
    · have := hord.and hnd
      exact this.imp (fun {a b} h => lt_of_le_of_ne (not_lt.mp h.1) h.2)

/-- C67: after any history of messages the counters and the display list say the truth about it. -/
theorem C67_statistics {sort : List String → List String} (hs : Sorts sort) (history : List Nat) :
    Truthful history (countAll sort Stats.empty history) := by
  suffices H : ∀ (h h' : List Nat) (s : Stats), Truthful h' s → Truthful (h' ++ h) (countAll sort s h) from
    H history [] _ truthful_empty
  intro h
  induction h with
  | nil => intro h' s ht; simpa [countAll] using ht
  | cons p h ih =>
    intro h' s ht
    have := ih (h' ++ [p]) _ (truthful_count hs ht p)
    simpa [countAll] using this

/-- Sorting routines exist. -/
theorem sorts_insertionSort : Sorts (List.insertionSort (· ≤ ·)) := by
  intro l
  refine ⟨List.perm_insertionSort _ _, ?_⟩
  exact (List.pairwise_insertionSort (· ≤ ·) l).imp (fun {a b} h => not_lt.mpr h)

/-- The order is textual: 60928 is displayed after 126992. -/
example : (countAll (List.insertionSort (· ≤ ·)) Stats.empty
    [60928, 126992, 60928, 127245]).pgns = ["126992", "127245", "60928"] ∧
    mapGet (countAll (List.insertionSort (· ≤ ·)) Stats.empty
    [60928, 126992, 60928, 127245]).log "60928" = some 2 := by decide +kernel

/-! ## C68 and C81 -/

variable {δ β : Type} {sort : List String → List String} {o : Opts} {out : Outputs}
  {print : Message δ → GoM Unit} {delta : Message δ → GoM (Option β)}

/-- The option lets a value through: it has its "any" value, or names that value. -/
def allows (opt any value : Int) : Prop := opt = any ∨ value = opt

theorem shown_iff (o : Opts) (h : RawMessage) : shown o h = true ↔
    (allows o.pgn 0 h.pgn ∧ allows o.src 255 h.source.toNat ∧ allows o.dst 255 h.destination.toNat) ∧
      o.stats = false := by
  simp only [shown, allows, Bool.and_eq_true, Bool.or_eq_true, beq_iff_eq, Bool.not_eq_true']
  tauto

def Effect.logged? : Effect β → Option RawMessage
  | .logged h => some h
  | _ => none
def Effect.counters? : Effect β → Option (List (String × UInt64))
  | .statistics c => some c
  | _ => none
def Effect.screen? : Effect β → Option (List (String × UInt64))
  | .screen c => some c
  | _ => none
def Effect.delta? : Effect β → Option β
  | .delta b => some b
  | _ => none
def Effect.publish? : Effect β → Option β
  | .publish b => some b
  | _ => none

theorem iteration_ok {s s' : Stats} {m : Message δ} {e : List (Effect β)}
    (h : iteration sort o out print delta s m = .ok (s', e)) :
    s' = count sort s m.header.pgn ∧ (shown o m.header = true → print m = .ok ()) ∧
    ∃ d, delta m = .ok d ∧ e =
      (if shown o m.header then [Effect.logged m.header] else []) ++
      (if out.websockets then [Effect.statistics s'.log] else []) ++
      (if o.stats then [Effect.screen (s'.pgns.map (fun k => (k, (mapGet s'.log k).getD 0)))] else []) ++
      match d with
      | none => []
      | some b => (if out.websockets then [Effect.delta b] else []) ++
                  (if out.mqtt then [Effect.publish b] else []) := by
  unfold iteration at h
  cases hd : delta m with
  | error p =>
    rw [hd] at h
    by_cases hsh : shown o m.header = true
    · simp only [hsh, if_true] at h
      cases hp : print m with
      | error q => rw [hp] at h; cases h
      | ok u => rw [hp] at h; cases h
    · simp only [hsh] at h; cases h
  | ok d =>
    rw [hd] at h
    by_cases hsh : shown o m.header = true
    · simp only [hsh, if_true] at h
      cases hp : print m with
      | error q => rw [hp] at h; cases h
      | ok u =>
        rw [hp] at h
        injection h with h
        injection h with h1 h2
        subst h1
        exact ⟨rfl, fun _ => rfl, d, rfl, by rw [← h2]; cases d <;> simp only [hsh, if_true]⟩
    · simp only [hsh] at h
      injection h with h
      injection h with h1 h2
      subst h1
      exact ⟨rfl, fun hh => absurd hh hsh, d, rfl, by rw [← h2]; cases d <;> simp only [hsh]⟩

theorem consume_cons {s s2 : Stats} {m : Message δ} {ms : List (Message δ)} {e : List (Effect β)}
    (h : consume sort o out print delta s (m :: ms) = .ok (s2, e)) :
    ∃ s1 e1 e2, iteration sort o out print delta s m = .ok (s1, e1) ∧
      consume sort o out print delta s1 ms = .ok (s2, e2) ∧ e = e1 ++ e2 := by
  simp only [consume] at h
  cases h1 : iteration sort o out print delta s m with
  | error p => rw [h1] at h; cases h
  | ok r =>
    obtain ⟨s1, e1⟩ := r
    rw [h1] at h
    cases h2 : consume sort o out print delta s1 ms with
    | error p => simp only [bind, Except.bind, h2] at h; cases h
    | ok r2 =>
      obtain ⟨s3, e2⟩ := r2
      simp only [bind, Except.bind, h2, pure, Except.pure, Except.ok.injEq, Prod.mk.injEq] at h
      exact ⟨s1, e1, e2, rfl, by rw [← h.1]; exact h2, h.2.symm⟩

/-- The display options let a message through. -/
def Passes (o : Opts) (h : RawMessage) : Prop :=
  allows o.pgn 0 h.pgn ∧ allows o.src 255 h.source.toNat ∧ allows o.dst 255 h.destination.toNat

instance (a b c : Int) : Decidable (allows a b c) := inferInstanceAs (Decidable (_ ∨ _))
instance (o : Opts) (h : RawMessage) : Decidable (Passes o h) := inferInstanceAs (Decidable (_ ∧ _))

/-- C68: outside statistics mode the messages logged are, in order, exactly those that pass the PGN,
source and destination options; in statistics mode none is. -/
theorem C68_filter {s s' : Stats} {ms : List (Message δ)} {e : List (Effect β)}
    (h : consume sort o out print delta s ms = .ok (s', e)) :
    e.filterMap Effect.logged? =
      if o.stats then [] else (ms.map Message.header).filter (fun m => decide (Passes o m)) := by
  induction ms generalizing s e with
  | nil =>
    simp only [consume, pure, Except.pure, Except.ok.injEq, Prod.mk.injEq] at h
    simp [← h.2]
  | cons m ms ih =>
    obtain ⟨s1, e1, e2, h1, h2, rfl⟩ := consume_cons h
    obtain ⟨_, _, d, _, he⟩ := iteration_ok h1
    rw [List.filterMap_append, ih h2]
    have : e1.filterMap Effect.logged? = if shown o m.header then [m.header] else [] := by
      rw [he]
      simp only [List.filterMap_append]
      cases d <;> cases shown o m.header <;> cases out.websockets <;> cases o.stats <;> cases out.mqtt <;> rfl
    rw [this]
    cases hst : o.stats with
    | true =>
      have : shown o m.header = false := by simp [shown, hst]
      simp [this]
    | false =>
      rw [List.map_cons, List.filter_cons]
      have : shown o m.header = decide (Passes o m.header) := by
        rw [Bool.eq_iff_iff, shown_iff, hst, decide_eq_true_iff]; simp [Passes]
      rw [this]
      simp only [Bool.false_eq_true, if_false]
      split <;> simp

/-- C68: with the default options every message is logged. -/
theorem C68_default {s s' : Stats} {ms : List (Message δ)} {e : List (Effect β)}
    (h : consume sort Opts.default out print delta s ms = .ok (s', e)) :
    e.filterMap Effect.logged? = ms.map Message.header := by
  rw [C68_filter h]
  rw [if_neg (by decide), List.filter_eq_self]
  intro m _
  rw [decide_eq_true_iff]
  exact ⟨Or.inl rfl, Or.inl rfl, Or.inl rfl⟩

/-- The counters after 1, 2, ..., n messages of a history of PGNs. -/
def snapshots (sort : List String → List String) (history : List Nat) : List Stats :=
  (List.range history.length).map (fun i => countAll sort Stats.empty (history.take (i + 1)))

/-- The counters as the display shows them. -/
def Stats.table (s : Stats) : List (String × UInt64) := s.pgns.map (fun k => (k, (mapGet s.log k).getD 0))

/-- The snapshots from a given state on. -/
def snapsFrom (sort : List String → List String) : Stats → List Nat → List Stats
  | _, [] => []
  | s, p :: ps => count sort s p :: snapsFrom sort (count sort s p) ps

theorem snapsFrom_eq (sort : List String → List String) (s : Stats) (h : List Nat) :
    snapsFrom sort s h = (List.range h.length).map (fun i => countAll sort s (h.take (i + 1))) := by
  induction h generalizing s with
  | nil => rfl
  | cons p h ih =>
    rw [snapsFrom, ih, List.length_cons, List.range_succ_eq_map, List.map_cons, List.map_map]
    rfl

/-- C81: what the consumer emits for a sequence of messages.  With WebSockets enabled there is one
statistics broadcast per message, carrying the counts up to and including that message; in statistics
mode the screen shows the same; the deltas of the messages that have one are broadcast (with WebSockets)
and published (with MQTT), in message order. -/
theorem C81_outputs {s' : Stats} {ms : List (Message δ)} {e : List (Effect β)}
    (h : consume sort o out print delta Stats.empty ms = .ok (s', e)) :
    s' = countAll sort Stats.empty (ms.map (fun m => m.header.pgn)) ∧
    e.filterMap Effect.counters? =
      (if out.websockets then (snapshots sort (ms.map (fun m => m.header.pgn))).map Stats.log else []) ∧
    e.filterMap Effect.screen? =
      (if o.stats then (snapshots sort (ms.map (fun m => m.header.pgn))).map Stats.table else []) ∧
    ∃ ds : List (Option β), ms.map delta = ds.map Except.ok ∧
      e.filterMap Effect.delta? = (if out.websockets then ds.filterMap id else []) ∧
      e.filterMap Effect.publish? = (if out.mqtt then ds.filterMap id else []) := by
  unfold snapshots
  rw [← snapsFrom_eq]
  generalize Stats.empty = s at h
  induction ms generalizing s e with
  | nil =>
    simp only [consume, pure, Except.pure, Except.ok.injEq, Prod.mk.injEq] at h
    refine ⟨h.1.symm, ?_, ?_, [], rfl, ?_, ?_⟩ <;> simp [← h.2, snapsFrom]
  | cons m ms ih =>
    obtain ⟨s1, e1, e2, h1, h2, rfl⟩ := consume_cons h
    obtain ⟨rfl, _, d, hd, he⟩ := iteration_ok h1
    obtain ⟨i1, i2, i3, ds, i4, i5, i6⟩ := ih _ h2
    refine ⟨i1, ?_, ?_, d :: ds, by rw [List.map_cons, hd, i4, List.map_cons], ?_, ?_⟩
    · rw [List.filterMap_append, i2, he]
      simp only [List.filterMap_append, List.map_cons, snapsFrom]
      cases d <;> cases shown o m.header <;> cases out.websockets <;> cases o.stats <;> cases out.mqtt <;> rfl
    · rw [List.filterMap_append, i3, he]
      simp only [List.filterMap_append, List.map_cons, snapsFrom]
      cases d <;> cases shown o m.header <;> cases out.websockets <;> cases o.stats <;> cases out.mqtt <;> rfl
    · rw [List.filterMap_append, i5, he]
      simp only [List.filterMap_append]
      cases d <;> cases shown o m.header <;> cases out.websockets <;> cases o.stats <;> cases out.mqtt <;> rfl
    · rw [List.filterMap_append, i6, he]
      simp only [List.filterMap_append]
      cases d <;> cases shown o m.header <;> cases out.websockets <;> cases o.stats <;> cases out.mqtt <;> rfl

/-- C81: the consumer goroutine (and with it the process) crashes exactly when one of the messages makes
`Delta` panic, or is logged and makes `Print` panic. -/
theorem C81_crash_iff (s : Stats) (ms : List (Message δ)) :
    (∃ p, consume sort o out print delta s ms = .error p) ↔
      ∃ m ∈ ms, (∃ p, delta m = .error p) ∨
        (o.stats = false ∧ Passes o m.header ∧ ∃ p, print m = .error p) := by
  induction ms generalizing s with
  | nil => simp [consume, pure, Except.pure]
  | cons m ms ih =>
    have hsh : shown o m.header = true ↔ (o.stats = false ∧ Passes o m.header) := by
      rw [shown_iff]; unfold Passes; tauto
    have hit : (∃ p, iteration sort o out print delta s m = .error p) ↔
        (∃ p, delta m = .error p) ∨ (o.stats = false ∧ Passes o m.header ∧ ∃ p, print m = .error p) := by
      rw [← and_assoc, ← hsh]
      unfold iteration
      cases hs : shown o m.header with
      | false =>
        cases hd : delta m with
        | error p => simp [bind, Except.bind, pure, Except.pure]
        | ok d => simp [bind, Except.bind, pure, Except.pure]
      | true =>
        cases hp : print m with
        | error p => simp [bind, Except.bind]
        | ok u =>
          cases hd : delta m with
          | error p => simp [bind, Except.bind]
          | ok d => simp [bind, Except.bind, pure, Except.pure]
    have hc : (∃ p, consume sort o out print delta s (m :: ms) = .error p) ↔
        (∃ p, iteration sort o out print delta s m = .error p) ∨
        ∃ p, consume sort o out print delta (count sort s m.header.pgn) ms = .error p ∧
          ∃ r, iteration sort o out print delta s m = .ok r := by
      simp only [consume]
      cases h1 : iteration sort o out print delta s m with
      | error p => simp [bind, Except.bind]
      | ok r =>
        obtain ⟨s1, e1⟩ := r
        obtain ⟨rfl, _⟩ := iteration_ok h1
        cases h2 : consume sort o out print delta (count sort s m.header.pgn) ms with
        | error p => simp [bind, Except.bind, h2]
        | ok r2 => simp [bind, Except.bind, h2, pure, Except.pure]
    rw [hc, hit]
    simp only [List.mem_cons, exists_eq_or_imp, ← ih (count sort s m.header.pgn)]
    constructor
    · rintro (h | ⟨p, h, _⟩)
      · exact Or.inl h
      · exact Or.inr ⟨p, h⟩
    · rintro (h | ⟨p, h⟩)
      · exact Or.inl h
      · cases h1 : iteration sort o out print delta s m with
        | error q => exact Or.inl (hit.mp ⟨q, h1⟩)
        | ok r => exact Or.inr ⟨p, h, r, rfl⟩

/-- Two rudder messages and one engine message, with WebSockets and MQTT, displaying PGN 127245 only. -/
def sampleMsg (pgn : Nat) (src : Byte) : Message Nat := ⟨⟨2, pgn, src, 255, 8, ⟨[], []⟩⟩, pgn % 7⟩

example : consume (β := Nat) (List.insertionSort (· ≤ ·)) ⟨false, 127245, 255, 255⟩ ⟨true, true⟩
    (fun _ => .ok ()) (fun m => .ok (if m.header.pgn = 127245 then some m.body else none)) Stats.empty
    [sampleMsg 127245 1, sampleMsg 127488 2, sampleMsg 127245 3] =
    .ok (⟨[("127245", 2), ("127488", 1)], ["127245", "127488"]⟩,
      [.logged (sampleMsg 127245 1).header, .statistics [("127245", 1)], .delta 6, .publish 6,
        .statistics [("127245", 1), ("127488", 1)],
        .logged (sampleMsg 127245 3).header, .statistics [("127245", 2), ("127488", 1)], .delta 6,
        .publish 6]) := by decide +kernel

end Argo.Main
