import Verif.Json.Pages
import Verif.Signalk.Live
import Verif.Nmea2k.Table

set_option autoImplicit false

/-!
# C132: what is asked for in the address of the message index

main/api_server.go:78-113, from the bytes after `?` in the address to the reply: net/url (`ParseQuery`, `QueryUnescape`, `Get`),
`strings.EqualFold`, the loop and the JSON.
-/

namespace Argo.Query

open Argo
open Argo.Nmea2k (Pgn)
open Argo.Main (IndexEntry)
open Argo.Signalk (Str bs)

/-! ## Model -/

/-- The value of a hexadecimal digit: net/url `ishex`, `unhex`. -/
def unhex (b : UInt8) : Option Nat :=
  if 48 ≤ b.toNat ∧ b.toNat ≤ 57 then some (b.toNat - 48)
  else if 97 ≤ b.toNat ∧ b.toNat ≤ 102 then some (b.toNat - 97 + 10)
  else if 65 ≤ b.toNat ∧ b.toNat ≤ 70 then some (b.toNat - 65 + 10)
  else none

/-- net/url `QueryUnescape`; `none` is an error. -/
def unescape : Str → Option Str
  | 37 :: x :: y :: r =>
    match unhex x, unhex y with
    | some h, some l => (unescape r).map (UInt8.ofNat (16 * h + l) :: ·)
    | _, _ => none
  | 37 :: _ => none
  | b :: r => (unescape r).map ((if b = 43 then 32 else b) :: ·)
  | [] => some []

/-- What is before the first byte that satisfies `p`, and what is after it. -/
def cut (p : UInt8 → Bool) : Str → Str × Str
  | [] => ([], [])
  | b :: r => if p b then ([], r) else let c := cut p r; (b :: c.1, c.2)

/-- One part of a query: key and value, or nothing if it is empty or cannot be decoded.  From Go 1.17 on, one with a semicolon
is an error. -/
def pair (newer : Bool) (s : Str) : Option (Str × Str) :=
  if newer ∧ (59 : UInt8) ∈ s then none
  else if s = [] then none
  else match unescape (cut (· = 61) s).1, unescape (cut (· = 61) s).2 with
    | some k, some v => some (k, v)
    | _, _ => none

/-- What separates the parts of a query: `&`, and before Go 1.17 (`newer` false) a semicolon. -/
def sep (newer : Bool) (x : UInt8) : Bool := x == 38 || (!newer && x == 59)

/-- The pieces between the bytes that satisfy `p`. -/
def pieces (p : UInt8 → Bool) : Str → List Str
  | [] => [[]]
  | b :: r => if p b then [] :: pieces p r else
    match pieces p r with
    | x :: xs => (b :: x) :: xs
    | [] => [[b]]

/-- net/url `ParseQuery`, whose error `URL.Query` ignores: the pairs in order.  It cuts off one part after the other; empty ones
are skipped. -/
def parseQuery (newer : Bool) (s : Str) : List (Str × Str) := (pieces (sep newer) s).filterMap (pair newer)

/-- net/url `Values.Get`: the first value, or the empty text. -/
def get (q : List (Str × Str)) (k : String) : Str := ((q.find? (fun e => e.1 = bs k)).map Prod.snd).getD []

/-- ASCII letters in lower case. -/
def low (b : UInt8) : UInt8 := if 65 ≤ b.toNat ∧ b.toNat ≤ 90 then b + 32 else b

/-- `strings.EqualFold(s, t)` for an ASCII text `t` (every category is one: `categories_ascii`): letters agree up to case;
the only other characters that fold to ASCII ones are U+017F (C5 BF) with s and U+212A (E2 84 AA) with k. -/
def equalFold : Str → Str → Bool
  | [], [] => true
  | 0xC5 :: 0xBF :: s, x :: t => low x == 115 && equalFold s t
  | 0xE2 :: 0x84 :: 0xAA :: s, x :: t => low x == 107 && equalFold s t
  | b :: s, x :: t => decide (b.toNat < 128) && low b == low x && equalFold s t
  | _, _ => false

/-- api_server.go:85-106: the loop from index `i` on. -/
def loop (tbl : List Pgn) (category typ : Str) : Nat → List Pgn → List IndexEntry → GoM (List IndexEntry)
  | _, [], acc => .ok acc
  | i, pgn :: rest, acc =>
    if category ≠ [] ∧ ¬ equalFold category (bs pgn.category) then loop tbl category typ (i + 1) rest acc
    else do
      let p ← Main.getPGNSummary tbl i
      let acc :=
        if typ ≠ [] then
          if typ = bs "s" ∧ p.size ≤ 8 then acc ++ [p]
          else if typ = bs "f" ∧ p.size > 8 ∧ p.size ≤ 223 then acc ++ [p]
          else if typ = bs "i" ∧ p.size > 223 ∧ p.size ≤ 1785 then acc ++ [p]
          else if typ = bs "o" ∧ p.size > 1785 then acc ++ [p]
          else acc
        else acc ++ [p]
      loop tbl category typ (i + 1) rest acc

/-- api_server.go:78-113 `MessagesIndex`: the reply to a request with this query.  `newer` is the release of net/url, `html` the one
of encoding/json as in `Json.printIndent`. -/
def reply (newer html : Bool) (tbl : List Pgn) (raw : Str) : GoM Str := do
  let q := parseQuery newer raw
  let l ← loop tbl (get q "category") (get q "type") 0 tbl []
  return Json.printIndent html (Json.indexOut l)

/-! ## Specification -/

/-- A hexadecimal digit, in either case. -/
def Hex (d : UInt8) (n : Nat) : Prop := (bs "0123456789abcdef")[n]? = some d ∨ (bs "0123456789ABCDEF")[n]? = some d

instance (d : UInt8) (n : Nat) : Decidable (Hex d n) := by unfold Hex; infer_instance

/-- `Encodes w v`: `w` is a way to write `v` in a query: each byte as it is, unless it has a meaning there (`%`, `&`, `;`, `+`, `=`),
or as `%` with two hexadecimal digits; a space may be a `+`. -/
inductive Encodes : Str → Str → Prop where
  | nil : Encodes [] []
  | same {b : UInt8} {w v : Str} : b ∉ bs "%&;+=" → Encodes w v → Encodes (b :: w) (b :: v)
  | space {w v : Str} : Encodes w v → Encodes (bs "+" ++ w) (bs " " ++ v)
  | hex {b x y : UInt8} {w v : Str} : Hex x (b.toNat / 16) → Hex y (b.toNat % 16) → Encodes w v →
      Encodes (bs "%" ++ [x, y] ++ w) (b :: v)

/-- A query with these parameters, in order. -/
inductive Asks : Str → List (Str × Str) → Prop where
  | one {kw k vw v : Str} : Encodes kw k → Encodes vw v → Asks (kw ++ bs "=" ++ vw) [(k, v)]
  | cons {kw k vw v w : Str} {l : List (Str × Str)} : Encodes kw k → Encodes vw v → Asks w l →
      Asks (kw ++ bs "=" ++ vw ++ bs "&" ++ w) ((k, v) :: l)

/-- The value of a parameter: the first with this name; nothing if there is none. -/
def param (l : List (Str × Str)) (name : String) : Str := ((l.find? (fun e => e.1 == bs name)).map Prod.snd).getD []

/-- The letter of a size. -/
def letter (size : Nat) : Str := if size ≤ 8 then bs "s" else if size ≤ 223 then bs "f" else if size ≤ 1785 then bs "i" else bs "o"

/-- ASCII letters in lower case. -/
def lowercase (s : Str) : Str := s.map (fun b => if b ∈ bs "ABCDEFGHIJKLMNOPQRSTUVWXYZ" then b + 32 else b)

/-- The definition is asked for: its category is the one given, in any case, and its type is the one given, if they are given. -/
def Wanted (category typ : Str) (d : Pgn) : Prop :=
  (category = [] ∨ lowercase category = lowercase (bs d.category)) ∧ (typ = [] ∨ typ = letter d.size)

instance (category typ : Str) (d : Pgn) : Decidable (Wanted category typ d) := by unfold Wanted; infer_instance

/-! ## Decoding -/

theorem bytes_special : bs "%&;+=" = [37, 38, 59, 43, 61] := by decide +kernel

theorem hex_lt {d : UInt8} {n : Nat} (h : Hex d n) : n < 16 := by
  have e : (bs "0123456789abcdef").length = 16 ∧ (bs "0123456789ABCDEF").length = 16 := by decide +kernel
  rcases h with h | h
  · rw [← e.1]; exact (List.getElem?_eq_some_iff.mp h).1
  · rw [← e.2]; exact (List.getElem?_eq_some_iff.mp h).1

theorem unhex_hex {d : UInt8} {n : Nat} (h : Hex d n) : unhex d = some n := by
  have : ∀ k : Fin 256, ∀ n : Fin 16, Hex (UInt8.ofNat k.val) n.val → unhex (UInt8.ofNat k.val) = some n.val := by
    decide +kernel
  have := this ⟨d.toNat, d.toNat_lt⟩ ⟨n, hex_lt h⟩
  simp only [UInt8.ofNat_toNat] at this
  exact this h

theorem hex_plain {d : UInt8} {n : Nat} (h : Hex d n) : d ∉ bs "%&;+=" := by
  have : ∀ k : Fin 256, ∀ n : Fin 16, Hex (UInt8.ofNat k.val) n.val → UInt8.ofNat k.val ∉ bs "%&;+=" := by
    decide +kernel
  have := this ⟨d.toNat, d.toNat_lt⟩ ⟨n, hex_lt h⟩
  simp only [UInt8.ofNat_toNat] at this
  exact this h

theorem unescape_cons {b : UInt8} (h : b ≠ 37) (r : Str) : unescape (b :: r) = (unescape r).map ((if b = 43 then 32 else b) :: ·) := by
  rw [unescape.eq_def]
  split
  · rename_i h'; cases h'; exact absurd rfl h
  · rename_i h'; cases h'; exact absurd rfl h
  · rename_i h'; cases h'; rfl
  · rename_i h'; cases h'

theorem unescape_encodes {w v : Str} (h : Encodes w v) : unescape w = some v := by
  have e1 : bs "+" = [43] := by decide +kernel
  have e2 : bs " " = [32] := by decide +kernel
  have e3 : bs "%" = [37] := by decide +kernel
  induction h with
  | nil => rfl
  | same hb _ ih =>
    rw [bytes_special] at hb
    simp only [List.mem_cons, List.not_mem_nil, or_false, not_or] at hb
    rw [unescape_cons hb.1, ih, if_neg hb.2.2.2.1]
    rfl
  | space _ ih =>
    rw [e1, e2]
    rw [List.singleton_append, unescape_cons (by decide), ih]
    rfl
  | @hex b x y w v hx hy _ ih =>
    rw [e3]
    show unescape (37 :: x :: y :: w) = _
    simp only [unescape, unhex_hex hx, unhex_hex hy, ih, Option.map_some]
    rw [show 16 * (b.toNat / 16) + b.toNat % 16 = b.toNat by omega, UInt8.ofNat_toNat]

theorem encodes_plain {w v : Str} (h : Encodes w v) : (38 : UInt8) ∉ w ∧ (59 : UInt8) ∉ w ∧ (61 : UInt8) ∉ w := by
  have e1 : bs "+" = [43] := by decide +kernel
  have e3 : bs "%" = [37] := by decide +kernel
  induction h with
  | nil => simp
  | same hb _ ih =>
    rw [bytes_special] at hb
    simp only [List.mem_cons, List.not_mem_nil, or_false, not_or] at hb ⊢
    exact ⟨⟨fun e => hb.2.1 e.symm, ih.1⟩, ⟨fun e => hb.2.2.1 e.symm, ih.2.1⟩, ⟨fun e => hb.2.2.2.2 e.symm, ih.2.2⟩⟩
  | space _ ih => rw [e1]; simpa using ih
  | @hex b x y w v hx hy _ ih =>
    rw [e3]
    have h1 := hex_plain hx
    have h2 := hex_plain hy
    rw [bytes_special] at h1 h2
    simp only [List.mem_cons, List.not_mem_nil, or_false, not_or] at h1 h2
    simp only [List.cons_append, List.nil_append, List.mem_cons, not_or]
    exact ⟨⟨by decide, fun e => h1.2.1 e.symm, fun e => h2.2.1 e.symm, ih.1⟩,
      ⟨by decide, fun e => h1.2.2.1 e.symm, fun e => h2.2.2.1 e.symm, ih.2.1⟩,
      ⟨by decide, fun e => h1.2.2.2.2 e.symm, fun e => h2.2.2.2.2 e.symm, ih.2.2⟩⟩

theorem cut_none {p : UInt8 → Bool} {s : Str} (h : ∀ b ∈ s, p b = false) : cut p s = (s, []) := by
  induction s with
  | nil => rfl
  | cons b s ih =>
    unfold cut
    rw [if_neg (by simp [h b List.mem_cons_self]), ih (fun x hx => h x (List.mem_cons_of_mem _ hx))]

theorem cut_at {p : UInt8 → Bool} {s : Str} (h : ∀ b ∈ s, p b = false) {b : UInt8} (hb : p b = true) (r : Str) :
    cut p (s ++ b :: r) = (s, r) := by
  induction s with
  | nil => simp [cut, hb]
  | cons a s ih =>
    rw [List.cons_append]
    unfold cut
    rw [if_neg (by simp [h a List.mem_cons_self]), ih (fun x hx => h x (List.mem_cons_of_mem _ hx))]

theorem pair_encodes (newer : Bool) {kw k vw v : Str} (hk : Encodes kw k) (hv : Encodes vw v) :
    pair newer (kw ++ 61 :: vw) = some (k, v) := by
  obtain ⟨_, k2, k3⟩ := encodes_plain hk
  obtain ⟨_, v2, v3⟩ := encodes_plain hv
  have h1 : (59 : UInt8) ∉ kw ++ 61 :: vw := by simp [k2, v2]
  unfold pair
  rw [if_neg (fun h => h1 h.2), if_neg (by simp)]
  rw [cut_at (fun b hb => by simp; rintro rfl; exact k3 hb) (by simp)]
  simp only [unescape_encodes hk, unescape_encodes hv]

theorem pieces_none {p : UInt8 → Bool} {s : Str} (h : ∀ b ∈ s, p b = false) : pieces p s = [s] := by
  induction s with
  | nil => rfl
  | cons b s ih =>
    unfold pieces
    rw [if_neg (by simp [h b List.mem_cons_self]), ih (fun x hx => h x (List.mem_cons_of_mem _ hx))]

theorem pieces_at {p : UInt8 → Bool} {s : Str} (h : ∀ b ∈ s, p b = false) {b : UInt8} (hb : p b = true) (r : Str) :
    pieces p (s ++ b :: r) = s :: pieces p r := by
  induction s with
  | nil => simp [pieces, hb]
  | cons a s ih =>
    rw [List.cons_append]
    simp only [pieces]
    rw [if_neg (by simp [h a List.mem_cons_self]), ih (fun x hx => h x (List.mem_cons_of_mem _ hx))]

/-- Every way to write the parameters is read as the parameters. -/
theorem parse_asks (newer : Bool) {w : Str} {l : List (Str × Str)} (h : Asks w l) : parseQuery newer w = l := by
  have e1 : bs "=" = [61] := by decide +kernel
  have e2 : bs "&" = [38] := by decide +kernel
  have np : ∀ {kw k vw v : Str}, Encodes kw k → Encodes vw v → ∀ b ∈ kw ++ 61 :: vw,
      sep newer b = false := by
    intro kw k vw v hk hv b hb
    obtain ⟨k1, k2, _⟩ := encodes_plain hk
    obtain ⟨v1, v2, _⟩ := encodes_plain hv
    rw [Bool.eq_false_iff]
    simp only [List.mem_append, List.mem_cons] at hb
    unfold sep
    simp only [ne_eq, Bool.or_eq_true, Bool.and_eq_true, beq_iff_eq]
    rintro (rfl | ⟨_, rfl⟩)
    · rcases hb with hb | hb | hb
      · exact k1 hb
      · cases hb
      · exact v1 hb
    · rcases hb with hb | hb | hb
      · exact k2 hb
      · cases hb
      · exact v2 hb
  induction h with
  | one hk hv =>
    rw [e1, List.append_assoc, List.singleton_append]
    simp only [parseQuery, pieces_none (np hk hv), List.filterMap_cons, pair_encodes newer hk hv, List.filterMap_nil]
  | @cons kw k vw v w l hk hv _ ih =>
    rw [e1, e2]
    rw [show kw ++ [61] ++ vw ++ [38] ++ w = (kw ++ 61 :: vw) ++ 38 :: w by simp]
    unfold parseQuery at ih ⊢
    rw [pieces_at (np hk hv) (by simp [sep])]
    simp only [List.filterMap_cons, pair_encodes newer hk hv, ih]

/-- **C132** (query): whatever parameters are asked for and however they are written in the address (as they are, with escapes in
either case, a space as `+`), the handler sees exactly them, with every release of Go. -/
theorem C132_query (newer : Bool) {w : Str} {l : List (Str × Str)} (h : Asks w l) (name : String) :
    get (parseQuery newer w) name = param l name := by
  rw [parse_asks newer h]
  unfold get param
  congr 3
  funext e
  simp [beq_eq_decide]

/-! ## Categories -/

/-- Every category of the shipped table is an ASCII text. -/
theorem categories_ascii : ∀ d ∈ Nmea2k.Table.pgnList, ∀ b ∈ bs d.category, b.toNat < 128 := by decide +kernel

theorem low_eq : ∀ n : Fin 128, low (UInt8.ofNat n.val) =
    (fun b : UInt8 => if b ∈ bs "ABCDEFGHIJKLMNOPQRSTUVWXYZ" then b + 32 else b) (UInt8.ofNat n.val) := by decide +kernel

theorem low_lowercase {b : UInt8} (h : b.toNat < 128) : [low b] = lowercase [b] := by
  have := low_eq ⟨b.toNat, h⟩
  simp only [UInt8.ofNat_toNat] at this
  simp only [lowercase, List.map_cons, List.map_nil, this]

theorem equalFold_cons {b : UInt8} (h : b.toNat < 128) (s : Str) (x : UInt8) (t : Str) :
    equalFold (b :: s) (x :: t) = (low b == low x && equalFold s t) := by
  rw [equalFold.eq_def]
  split
  · rename_i h'; cases h'
  · rename_i h' _; cases h'; exact absurd h (by decide)
  · rename_i h' _; cases h'; exact absurd h (by decide)
  · rename_i h1 h2; cases h1; cases h2; simp [h]
  · rename_i h'; exact (h' _ _ _ _ rfl rfl).elim

theorem equalFold_ascii {s t : Str} (hs : ∀ b ∈ s, b.toNat < 128) (ht : ∀ b ∈ t, b.toNat < 128) :
    equalFold s t = decide (lowercase s = lowercase t) := by
  induction s generalizing t with
  | nil => cases t <;> simp [equalFold, lowercase]
  | cons b s ih =>
    cases t with
    | nil =>
      rw [equalFold.eq_def]
      split <;> simp_all [lowercase]
    | cons x t =>
      have hb := low_lowercase (hs b List.mem_cons_self)
      have hx := low_lowercase (ht x List.mem_cons_self)
      rw [equalFold_cons (hs b List.mem_cons_self), ih (fun y hy => hs y (List.mem_cons_of_mem _ hy))
        (fun y hy => ht y (List.mem_cons_of_mem _ hy)), Bool.eq_iff_iff]
      simp only [lowercase, List.map_cons, List.map_nil, List.cons.injEq, and_true] at hb hx
      have e : ∀ (a : UInt8) (r : Str), lowercase (a :: r) = (lowercase [a] ++ lowercase r) := fun _ _ => rfl
      rw [e b, e x]
      have hb' : lowercase [b] = [low b] := by rw [hb]; rfl
      have hx' : lowercase [x] = [low x] := by rw [hx]; rfl
      rw [hb', hx', Bool.and_eq_true, beq_iff_eq, decide_eq_true_eq, List.singleton_append, List.singleton_append, decide_eq_true_eq, List.cons.injEq]

/-! ## The reply -/

/-- The loop's test. -/
def test (category typ : Str) (d : Pgn) : Bool :=
  (decide (category = []) || equalFold category (bs d.category)) && (decide (typ = []) || decide (typ = letter d.size))

theorem loop_eq (tbl : List Pgn) (category typ : Str)
    (i : Nat) (rest : List Pgn) (acc : List IndexEntry) (h : ∀ k d, rest[k]? = some d → tbl[i + k]? = some d) :
    loop tbl category typ i rest acc = .ok (acc ++
      (((List.range' i rest.length).zip rest).filter (fun e => test category typ e.2)).map
        (fun e => Main.entryFor e.1 e.2)) := by
  have l1 : bs "s" = [115] := by decide +kernel
  have l2 : bs "f" = [102] := by decide +kernel
  have l3 : bs "i" = [105] := by decide +kernel
  have l4 : bs "o" = [111] := by decide +kernel
  induction rest generalizing i acc with
  | nil => simp [loop]
  | cons d rest ih =>
    have hd := h 0 d rfl
    rw [Nat.add_zero] at hd
    have hrest : ∀ k e, rest[k]? = some e → tbl[i + 1 + k]? = some e := fun k e he => by
      have := h (k + 1) e (by simpa using he)
      rwa [Nat.add_assoc, Nat.add_comm 1 k]
    rw [loop, List.length_cons, List.range'_succ, List.zip_cons_cons, List.filter_cons]
    by_cases hc : category ≠ [] ∧ ¬ equalFold category (bs d.category)
    · rw [if_pos hc, ih (i + 1) acc hrest]
      have : test category typ d = false := by
        have h2 : equalFold category (bs d.category) = false := by simpa using hc.2
        simp [test, hc.1, h2]
      simp [this]
    · rw [if_neg hc, Main.summary_eq hd]
      simp only [bind, Except.bind]
      have hcat : (decide (category = []) || equalFold category (bs d.category)) = true := by
        by_cases h1 : category = []
        · simp [h1]
        · simp only [ne_eq, h1, not_false_eq_true, true_and, Bool.not_eq_true, Bool.not_eq_false] at hc
          simp [hc]
      have hw : test category typ d = (decide (typ = []) || decide (typ = letter d.size)) := by
        simp only [test, hcat, Bool.true_and]
      rw [ih (i + 1) _ hrest, hw]
      by_cases ht : typ = []
      · simp [ht]
      · rw [if_pos ht]
        have hsz : (Main.entryFor i d).size = d.size := rfl
        simp only [hsz, ht, decide_false, Bool.false_or]
        unfold letter
        rw [l1, l2, l3, l4]
        by_cases h1 : d.size ≤ 8
        · have n1 : ¬ d.size > 8 := by omega
          have n2 : ¬ d.size > 223 := by omega
          have n3 : ¬ d.size > 1785 := by omega
          by_cases hs : typ = [115] <;> simp [h1, n1, n2, n3, hs]
        · by_cases h2 : d.size ≤ 223
          · have p1 : d.size > 8 := by omega
            have n2 : ¬ d.size > 223 := by omega
            have n3 : ¬ d.size > 1785 := by omega
            by_cases hs : typ = [102] <;> simp [h1, p1, h2, n2, n3, hs]
          · by_cases h3 : d.size ≤ 1785
            · have p2 : d.size > 223 := by omega
              have n3 : ¬ d.size > 1785 := by omega
              by_cases hs : typ = [105] <;> simp [h1, h2, h3, p2, n3, hs]
            · have p3 : d.size > 1785 := by omega
              by_cases hs : typ = [111] <;> simp [h1, h2, h3, p3, hs]

/-- The model of C70 and C105 is this one, for texts in UTF-8. -/
theorem loop_messagesIndex (tbl : List Pgn) (category typ : String) :
    loop tbl (bs category) (bs typ) 0 tbl [] =
      Main.messagesIndex tbl (fun x y => equalFold (bs x) (bs y)) category typ := by
  have nil : ∀ s, bs s = [] ↔ s = "" := fun s =>
    ⟨fun h => Signalk.bs_inj (h.trans (by decide +kernel)), fun h => by subst h; decide +kernel⟩
  rw [loop_eq tbl _ _ 0 tbl [] (by simp), Main.C70_index]
  unfold Main.numbered
  rw [List.range_eq_range', List.nil_append]
  congr 2
  apply List.filter_congr
  intro e _
  unfold test Main.wanted
  have hl : bs (Main.kindOf e.2.size).letter = letter e.2.size := by
    unfold Main.kindOf letter
    split
    · rfl
    · split
      · rfl
      · split <;> rfl
  rw [Bool.eq_iff_iff]
  simp only [Bool.and_eq_true, Bool.or_eq_true, decide_eq_true_eq, beq_iff_eq, nil, ← hl]
  constructor
  · rintro ⟨h1, h2⟩; exact ⟨h1, h2.imp_right Signalk.bs_inj⟩
  · rintro ⟨h1, h2⟩; exact ⟨h1, h2.imp_right (fun h => by rw [h])⟩

/-- The definitions of a table that satisfy a test, with their positions in the table. -/
def Found (tbl : List Pgn) (want : Pgn → Prop) (l : List (Nat × Pgn)) : Prop :=
  l.Pairwise (fun a b => a.1 < b.1) ∧ ∀ e, e ∈ l ↔ tbl[e.1]? = some e.2 ∧ want e.2

theorem found_filter (tbl : List Pgn) (p : Pgn → Bool) : Found tbl (fun d => p d = true) ((Main.numbered tbl).filter (fun e => p e.2)) := by
  constructor
  · apply List.Pairwise.filter
    have : ((Main.numbered tbl).map Prod.fst).Pairwise (· < ·) := by
      rw [Main.numbered, List.map_fst_zip (by simp)]
      exact List.pairwise_lt_range
    exact List.pairwise_map.mp this
  · rintro ⟨i, d⟩
    rw [List.mem_filter]
    refine and_congr_left' ?_
    rw [List.mem_iff_getElem?]
    constructor
    · rintro ⟨k, hk⟩
      rw [Main.numbered, List.getElem?_zip_eq_some] at hk
      obtain ⟨h1, h2⟩ := hk
      have hlt := (List.getElem?_eq_some_iff.mp h2).1
      rw [List.getElem?_range hlt] at h1
      cases h1
      exact h2
    · intro h
      have hlt := (List.getElem?_eq_some_iff.mp h).1
      refine ⟨i, ?_⟩
      rw [Main.numbered, List.getElem?_zip_eq_some]
      exact ⟨List.getElem?_range hlt, h⟩

/-- The JSON of a listing. -/
def listing (l : List (Nat × Pgn)) : Json.Json := if l = [] then .null else .arr (l.map (fun e => Json.entryJson e.1 e.2))

theorem reply_reads (newer html : Bool) (tbl : List Pgn) (raw : Str) :
    ∃ b, reply newer html tbl raw = .ok b ∧ ∀ j, Json.Reads b j ↔ j = listing ((Main.numbered tbl).filter
      (fun e => test (get (parseQuery newer raw) "category") (get (parseQuery newer raw) "type") e.2)) := by
  refine ⟨_, by simp only [reply]; rw [loop_eq tbl _ _ 0 tbl [] (by simp)]; rfl, fun j => ?_⟩
  rw [List.nil_append, ← List.range_eq_range']
  show Json.Reads (Json.printIndent html (Json.indexOut (List.map _ (List.filter _ (Main.numbered tbl))))) j ↔ _
  generalize (Main.numbered tbl).filter _ = l
  rw [Json.reads_indent_iff]
  · unfold Json.indexOut listing
    cases l with
    | nil => simp [Json.meaning]
    | cons x l =>
      simp only [List.map_cons, List.isEmpty_cons, Bool.false_eq_true, if_false, reduceCtorEq, Json.meaning, Json.meanings_eq,
        Json.entry_meaning, List.map_map]
      have : Json.meaning ∘ (Json.entryOut ∘ fun e : Nat × Pgn => Main.entryFor e.1 e.2) = fun e => Json.entryJson e.1 e.2 := by
        funext e; exact Json.entry_meaning e.1 e.2
      simp only [this]
  · unfold Json.indexOut
    split
    · trivial
    · unfold Json.Numbers
      rw [Json.numbersL_iff]
      intro o ho
      obtain ⟨e, _, rfl⟩ := List.mem_map.mp ho
      exact Json.entry_numbers e

/-- **C132** (index): whatever parameters are asked for and however they are written in the address, the reply of the shipped program
is one JSON text: the entries of exactly the definitions of the category asked for, in any case, and of the type asked for, in the
order of the table, or `null` if there are none. -/
theorem C132_index (newer html : Bool) {w : Str} {l : List (Str × Str)} (h : Asks w l) (ha : ∀ b ∈ param l "category", b.toNat < 128) :
    ∃ b found, reply newer html Nmea2k.Table.pgnList w = .ok b ∧
      Found Nmea2k.Table.pgnList (Wanted (param l "category") (param l "type")) found ∧
      ∀ j, Json.Reads b j ↔ j = listing found := by
  obtain ⟨b, h1, h2⟩ := reply_reads newer html Nmea2k.Table.pgnList w
  rw [C132_query newer h, C132_query newer h] at h2
  obtain ⟨f1, f2⟩ := found_filter Nmea2k.Table.pgnList (test (param l "category") (param l "type"))
  refine ⟨b, _, h1, ⟨f1, fun e => (f2 e).trans ?_⟩, h2⟩
  refine and_congr_right fun he => ?_
  have hd := categories_ascii e.2 (List.mem_of_getElem? he)
  show test (param l "category") (param l "type") e.2 = true ↔ _
  unfold test Wanted
  rw [equalFold_ascii ha hd]
  simp only [Bool.and_eq_true, Bool.or_eq_true, decide_eq_true_eq]

/-- What `lowercase` leaves of the two characters that fold to ASCII letters. -/
def Odd (s : Str) : Prop := ∃ a b, s = a ++ [0xC5, 0xBF] ++ b ∨ s = a ++ [0xE2, 0x84, 0xAA] ++ b

theorem equalFold_other {s t : Str} (h : equalFold s t = true) : (∀ b ∈ s, b.toNat < 128) ∨ Odd s := by
  fun_induction equalFold s t with
  | case1 => exact .inl (by simp)
  | case2 s x t _ => exact .inr ⟨[], s, .inl rfl⟩
  | case3 s x t _ => exact .inr ⟨[], s, .inr rfl⟩
  | case4 b s x t _ _ ih =>
    simp only [Bool.and_eq_true, decide_eq_true_eq] at h
    rcases ih h.2 with h' | ⟨a, c, h'⟩
    · left
      intro y hy
      rcases List.mem_cons.mp hy with rfl | hy
      · exact h.1.1
      · exact h' y hy
    · right
      rcases h' with rfl | rfl
      · exact ⟨b :: a, c, .inl rfl⟩
      · exact ⟨b :: a, c, .inr rfl⟩
  | case5 => cases h

/-- **C132** (other texts): a category that is not ASCII and has neither of the two characters lists nothing. -/
theorem C132_other (newer html : Bool) (tbl : List Pgn) {w : Str} {l : List (Str × Str)} (h : Asks w l)
    (hn : ∃ b ∈ param l "category", 128 ≤ b.toNat) (ho : ¬ Odd (param l "category")) :
    ∃ b, reply newer html tbl w = .ok b ∧ ∀ j, Json.Reads b j ↔ j = .null := by
  obtain ⟨b, h1, h2⟩ := reply_reads newer html tbl w
  rw [C132_query newer h, C132_query newer h] at h2
  refine ⟨b, h1, fun j => (h2 j).trans ?_⟩
  rw [List.filter_eq_nil_iff.mpr]
  · rfl
  · intro e _ ht
    unfold test at ht
    simp only [Bool.and_eq_true, Bool.or_eq_true, decide_eq_true_eq] at ht
    obtain ⟨x, hx, hl⟩ := hn
    rcases ht.1 with h3 | h3
    · rw [h3] at hx; cases hx
    · rcases equalFold_other h3 with h4 | h4
      · exact absurd (h4 x hx) (by omega)
      · exact ho h4

/-- **C132** (no query): without parameters, every definition is listed. -/
theorem C132_all (newer html : Bool) (tbl : List Pgn) (ht : tbl ≠ []) :
    ∃ b, reply newer html tbl [] = .ok b ∧
      ∀ j, Json.Reads b j ↔ j = .arr ((Main.numbered tbl).map (fun e => Json.entryJson e.1 e.2)) := by
  obtain ⟨b, h1, h2⟩ := reply_reads newer html tbl []
  refine ⟨b, h1, fun j => (h2 j).trans ?_⟩
  have : (Main.numbered tbl).filter (fun e => test (get (parseQuery newer []) "category") (get (parseQuery newer []) "type") e.2) =
      Main.numbered tbl := by
    rw [List.filter_eq_self]
    intro e _
    have hq : parseQuery newer [] = [] := by cases newer <;> rfl
    rw [hq]
    rfl
  rw [this, listing, if_neg]
  cases tbl with
  | nil => exact absurd rfl ht
  | cons a t => simp [Main.numbered, List.range_succ_eq_map]

/-! ## Examples -/

/-- `category=n%61vigation&x=a+b&type=s`: "navigation", single frames. -/
theorem exAsks : Asks (bs "category=n%61vigation&x=a+b&type=s") [(bs "category", bs "navigation"), (bs "x", bs "a b"), (bs "type", bs "s")] := by
  have plain : ∀ s : Str, (∀ b ∈ s, b ∉ bs "%&;+=") → Encodes s s := by
    intro s
    induction s with
    | nil => exact fun _ => .nil
    | cons b s ih => exact fun h => .same (h b List.mem_cons_self) (ih (fun x hx => h x (List.mem_cons_of_mem _ hx)))
  have p : ∀ s ∈ [bs "category", bs "x", bs "type", bs "s", bs "vigation", bs "b"], Encodes s s :=
    fun s hs => plain s ((show ∀ s ∈ [bs "category", bs "x", bs "type", bs "s", bs "vigation", bs "b"], ∀ b ∈ s, b ∉ bs "%&;+=" by
      decide +kernel) s hs)
  have v1 : Encodes (bs "n%61vigation") (bs "navigation") := by
    rw [show bs "n%61vigation" = 110 :: (bs "%" ++ [54, 49] ++ bs "vigation") by decide +kernel,
      show bs "navigation" = 110 :: 97 :: bs "vigation" by decide +kernel]
    exact .same (by decide +kernel) (.hex (by decide +kernel) (by decide +kernel) (p _ (by simp)))
  have v2 : Encodes (bs "a+b") (bs "a b") := by
    rw [show bs "a+b" = 97 :: (bs "+" ++ bs "b") by decide +kernel, show bs "a b" = 97 :: (bs " " ++ bs "b") by decide +kernel]
    exact .same (by decide +kernel) (.space (p _ (by simp)))
  rw [show bs "category=n%61vigation&x=a+b&type=s" =
    bs "category" ++ bs "=" ++ bs "n%61vigation" ++ bs "&" ++ (bs "x" ++ bs "=" ++ bs "a+b" ++ bs "&" ++ (bs "type" ++ bs "=" ++ bs "s")) by
    decide +kernel]
  exact .cons (p _ (by simp)) v1 (.cons (p _ (by simp)) v2 (.one (p _ (by simp)) (p _ (by simp))))

example : ∀ b ∈ param [(bs "category", bs "navigation"), (bs "x", bs "a b"), (bs "type", bs "s")] "category", b.toNat < 128 := by
  decide +kernel

/-- Some definitions are of that category and type. -/
example : ∃ d ∈ Nmea2k.Table.pgnList, Wanted (bs "nAVIGATION") (bs "s") d := by decide +kernel

example : equalFold (bs "ſimrad") (bs "Simrad") = true ∧ equalFold (bs "Simräd") (bs "Simrad") = false := by decide +kernel

/-- A part that cannot be decoded is left out, and so is one with a semicolon, from Go 1.17 on. -/
example : parseQuery true (bs "type=%zz&category=AIS&a;b=c") = [(bs "category", bs "AIS")] ∧
    parseQuery false (bs "category=AIS;type=f") = [(bs "category", bs "AIS"), (bs "type", bs "f")] := by
  decide +kernel

end Argo.Query
