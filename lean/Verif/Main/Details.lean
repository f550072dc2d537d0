import Verif.Main.ApiProps
import Verif.Signalk.Library

set_option autoImplicit false

/-! # C71 for every key

The theorems of `ApiProps` are about keys written in the usual way.  Here the key is any text. -/

namespace Argo.Main

open Argo Argo.Nmea2k Argo.Signalk

/-- The parts of a key: `t` is the text before the first dot, and `x` says whether the text between the
first and the second dot (or the end) is xml. -/
inductive KeyParts : Str → Str → Bool → Prop
  | whole (t : Str) : (46 : Byte) ∉ t → KeyParts t t false
  | xml (t rest : Str) : (46 : Byte) ∉ t → rest = [] ∨ rest.head? = some 46 →
      KeyParts (t ++ bs ".xml" ++ rest) t true
  | other (t ext rest : Str) : (46 : Byte) ∉ t → (46 : Byte) ∉ ext → ext ≠ bs "xml" →
      rest = [] ∨ rest.head? = some 46 → KeyParts (t ++ 46 :: ext ++ rest) t false

theorem takeWhile_dot (t rest : Str) (ht : (46 : Byte) ∉ t) (hr : rest = [] ∨ rest.head? = some 46) :
    (t ++ rest).takeWhile (fun c => decide (c ≠ 46)) = t ∧ (t ++ rest).dropWhile (fun c => decide (c ≠ 46)) = rest := by
  have h : ∀ c ∈ t, (decide (c ≠ 46)) = true := by
    intro c hc
    simp only [decide_eq_true_eq]
    rintro rfl
    exact ht hc
  rw [List.takeWhile_append_of_pos h, List.dropWhile_append_of_pos h]
  rcases hr with rfl | hr
  · simp
  · cases rest with
    | nil => cases hr
    | cons c cs =>
      simp only [List.head?_cons, Option.some.injEq] at hr
      subst hr
      simp

theorem keyParts_split {key t : Str} {x : Bool} (h : KeyParts key t x) :
    (splitDot key).1 = t ∧ ((splitDot key).2 == some (bs "xml")) = x := by
  cases h with
  | whole t ht =>
    obtain ⟨h1, h2⟩ := takeWhile_dot key [] ht (Or.inl rfl)
    rw [List.append_nil] at h1 h2
    unfold splitDot
    rw [h2, h1]
    exact ⟨rfl, rfl⟩
  | xml t rest ht hr =>
    have hx : bs ".xml" = 46 :: bs "xml" := by decide +kernel
    obtain ⟨h1, h2⟩ := takeWhile_dot t (46 :: bs "xml" ++ rest) ht (Or.inr rfl)
    obtain ⟨h3, _⟩ := takeWhile_dot (bs "xml") rest (by decide +kernel) hr
    have e : t ++ bs ".xml" ++ rest = t ++ (46 :: bs "xml" ++ rest) := by rw [hx]; simp
    unfold splitDot
    rw [e, h1, h2]
    simp only [List.cons_append, h3, true_and]
    simp
  | other t ext rest ht hx hne hr =>
    obtain ⟨h1, h2⟩ := takeWhile_dot t (46 :: ext ++ rest) ht (Or.inr rfl)
    obtain ⟨h3, _⟩ := takeWhile_dot ext rest hx hr
    have e : t ++ 46 :: ext ++ rest = t ++ (46 :: ext ++ rest) := by simp
    unfold splitDot
    rw [e, h1, h2]
    simp only [List.cons_append, h3, true_and]
    simpa using hne

theorem dot_split (s : Str) : ∃ t rest, s = t ++ rest ∧ (46 : Byte) ∉ t ∧ (rest = [] ∨ ∃ r, rest = 46 :: r) := by
  induction s with
  | nil => exact ⟨[], [], rfl, by simp, Or.inl rfl⟩
  | cons c cs ih =>
    by_cases hc : c = 46
    · exact ⟨[], c :: cs, rfl, by simp, Or.inr ⟨cs, by rw [hc]⟩⟩
    · obtain ⟨t, rest, h1, h2, h3⟩ := ih
      refine ⟨c :: t, rest, by simp [h1], ?_, h3⟩
      simp only [List.mem_cons, not_or]
      exact ⟨fun e => hc e.symm, h2⟩

/-- C71: every key has parts, so the theorems below cover all of them. -/
theorem C71_parts (key : Str) : ∃ t x, KeyParts key t x := by
  obtain ⟨t, rest, rfl, ht, rfl | ⟨r, rfl⟩⟩ := dot_split key
  · exact ⟨t, false, by simpa using KeyParts.whole t ht⟩
  · obtain ⟨ext, rest, rfl, hx, hr⟩ := dot_split r
    have hr' : rest = [] ∨ rest.head? = some 46 := by
      rcases hr with h | ⟨r, rfl⟩
      · exact Or.inl h
      · exact Or.inr rfl
    by_cases hxml : ext = bs "xml"
    · subst hxml
      refine ⟨t, true, ?_⟩
      have e : t ++ 46 :: (bs "xml" ++ rest) = t ++ bs ".xml" ++ rest := by
        have hx : bs ".xml" = 46 :: bs "xml" := by decide +kernel
        rw [hx]; simp
      rw [e]
      exact .xml t rest ht hr'
    · refine ⟨t, false, ?_⟩
      have := KeyParts.other t ext rest ht hx hxml hr'
      simpa using this

/-- What is answered for the number `n`: the definition with that index, or, for a number that is no index,
the first definition with that PGN, or definition 0 if there is none. -/
inductive Answer (tbl : List Pgn) (n : Nat) : Pgn → Prop
  | index (d : Pgn) : tbl[n]? = some d → Answer tbl n d
  | pgn (i : Nat) (d : Pgn) : tbl.length ≤ n → tbl[i]? = some d → d.pgn = n →
      (∀ k q, k < i → tbl[k]? = some q → q.pgn ≠ n) → Answer tbl n d
  | none (d : Pgn) : tbl.length ≤ n → (∀ q ∈ tbl, q.pgn ≠ n) → tbl[0]? = some d → Answer tbl n d

theorem details_answer {tbl : List Pgn} (hne : tbl ≠ []) {key t : Str} {x : Bool} (hk : KeyParts key t x)
    {n : Nat} (hp : parseInt32 t = n) (hn : n < 2 ^ 32) : ∃ d, messageDetails tbl key = .ok (d, x) ∧ Answer tbl n d := by
  obtain ⟨h1, h2⟩ := keyParts_split hk
  unfold messageDetails
  simp only [h1, h2, hp]
  by_cases hl : (n : Int) ≥ (tbl.length : Int)
  · rw [if_pos hl]
    obtain ⟨i, p, g1, g2, g3⟩ := C33_first tbl n hne
    have : ((n : Int).toNat % 2 ^ 32) = n := by simp; omega
    rw [this, g1]
    simp only [bind, Except.bind, g2]
    refine ⟨p, rfl, ?_⟩
    rcases g3 with ⟨a, b⟩ | ⟨rfl, b⟩
    · exact .pgn i p (by omega) g2 a b
    · exact .none p (by omega) b g2
  · rw [if_neg hl]
    obtain ⟨d, hd⟩ : ∃ d, tbl[n]? = some d := ⟨tbl[n]'(by omega), List.getElem?_eq_getElem (by omega)⟩
    simp only [goIndex, Int.toNat_natCast, hd]
    rw [if_pos (by omega)]
    exact ⟨d, rfl, .index d hd⟩

/-- C71: a key whose first part denotes a number from 0 to 2^31-1 is answered with the definition for that
number, as XML exactly if the second part is xml. -/
theorem C71_number {tbl : List Pgn} (hne : tbl ≠ []) {key t : Str} {x : Bool} (hk : KeyParts key t x)
    {n : Nat} (hn : Number t n) (hlt : n < 2 ^ 31) :
    ∃ d, messageDetails tbl key = .ok (d, x) ∧ Answer tbl n d := by
  have := (C55_number (bits := 32) (by decide) t n).2 ⟨hn, by omega, by simp; omega⟩
  exact details_answer hne hk (show parseInt32 t = n by unfold parseInt32; rw [this]) (by omega)

/-- C71: a larger number is taken for 2^31-1. -/
theorem C71_large {tbl : List Pgn} (hne : tbl ≠ []) {key t : Str} {x : Bool} (hk : KeyParts key t x)
    {v : Int} (hn : Number t v) (hge : 2 ^ 31 ≤ v) :
    ∃ d, messageDetails tbl key = .ok (d, x) ∧ Answer tbl (2 ^ 31 - 1) d := by
  have := (C55_number_range (bits := 32) (by decide) hn).1 hge
  exact details_answer hne hk (show parseInt32 t = ((2 ^ 31 - 1 : Nat) : Int) by
    unfold parseInt32; rw [this]; rfl) (by omega)

/-- C71: a text that is not a number (and does not begin with one of 33 bits or more) is taken for 0. -/
theorem C71_malformed {tbl : List Pgn} (hne : tbl ≠ []) {key t : Str} {x : Bool} (hk : KeyParts key t x)
    (hn : ∀ v, ¬ Number t v) (hpre : ∀ p q v, t = p ++ q → Number p v → -2 ^ 32 < v ∧ v < 2 ^ 32) :
    ∃ d, messageDetails tbl key = .ok (d, x) ∧ Answer tbl 0 d := by
  have := C55_number_malformed (bits := 32) (by decide) hn hpre
  exact details_answer hne hk (show parseInt32 t = ((0 : Nat) : Int) by unfold parseInt32; rw [this]; rfl)
    (by omega)

/-- C71 is false of negative numbers: every one of them makes the handler panic. -/
theorem C71_negative_false {tbl : List Pgn} (hne : tbl ≠ []) {key t : Str} {x : Bool} (hk : KeyParts key t x)
    {v : Int} (hn : Number t v) (hneg : v < 0) : ∃ p, messageDetails tbl key = .error p := by
  rw [C71_panic_iff hne, (keyParts_split hk).1]
  unfold parseInt32
  by_cases h : -2 ^ 31 ≤ v
  · rw [(C55_number (bits := 32) (by decide) t v).2 ⟨hn, h, by omega⟩]; exact hneg
  · rw [(C55_number_range (bits := 32) (by decide) hn).2 (by simp; omega)]; decide

example : KeyParts (bs "+0127.xml.gz") (bs "+0127") true ∧ Number (bs "+0127") (127 : Nat) := by
  refine ⟨?_, .plus _ _ ⟨by decide, by decide, by decide⟩⟩
  have : bs "+0127.xml.gz" = bs "+0127" ++ bs ".xml" ++ bs ".gz" := by decide +kernel
  rw [this]
  exact .xml _ _ (by decide +kernel) (Or.inr (by decide +kernel))

example : KeyParts (bs "-5") (bs "-5") false ∧ Number (bs "-5") (-5) :=
  ⟨.whole _ (by decide +kernel), .minus _ _ ⟨by decide, by decide, by decide⟩⟩

end Argo.Main
