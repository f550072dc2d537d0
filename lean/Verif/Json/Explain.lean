import Verif.Json.Pages

set_option autoImplicit false

/-!
# The output of `-explain` (C108)
-/

namespace Argo.Json

open Argo
open Argo.Nmea2k (Pgn Field Units Res)
open Argo.Nmea2k
open Argo.Signalk (Str bs)

/-! ## Model -/

/-- The elements of `nmea2k.PgnList`, each with its own orders of the maps in it. -/
def pgnsOut (scale : String → List Byte) (ord : Nat → MapOrder) : Nat → List Pgn → List Out
  | _, [] => []
  | k, d :: l => pgnOut scale (ord k) d :: pgnsOut scale ord (k + 1) l

/-- main/argo.go:74-82: `json.MarshalIndent(nmea2k.PgnList, "", "  ")`, then a newline by `fmt.Println`. -/
def explain (newer : Bool) (scale : String → List Byte) (ord : Nat → MapOrder) (tbl : List Pgn) : List Byte :=
  printIndent newer (.arr (pgnsOut scale ord 0 tbl)) ++ [10]

/-! ## Proofs -/

theorem pgns_numbers {scale : String → List Byte} (hs : ∀ s, IsNumber (scale s)) (ord : Nat → MapOrder) (l : List Pgn) :
    ∀ k, NumbersL (pgnsOut scale ord k l) := by
  induction l with
  | nil => intro k; trivial
  | cons d l ih => intro k; exact ⟨pgn_numbers hs (ord k) d, ih _⟩

theorem pgns_json {scale : String → List Byte} {ord : Nat → MapOrder} (ho : ∀ i k s l, (ord i k s l).Perm l) (l : List Pgn)
    (hl : ∀ d ∈ l, ∀ f ∈ d.fieldList, UnitsKnown f.units = true) :
    ∀ k, List.Forall₂ (PgnJson scale) l (meanings (pgnsOut scale ord k l)) := by
  induction l with
  | nil => intro k; exact .nil
  | cons d l ih =>
    intro k
    exact .cons (pgn_json (ho k) (hl d (by simp))) (ih (fun x hx => hl x (by simp [hx])) _)

/-- Whitespace may follow the text. -/
theorem reads_layout_blank (newer : Bool) {o : Out} (h : Numbers o) {w : List Byte} (hw : Blank w) (v : Json) :
    Reads (printIndent newer o ++ w) v ↔ v = meaning o := by
  have hstop : Stop w := by
    intro b hb
    cases w with
    | nil => cases hb
    | cons c w =>
      injection hb with hb; subst hb
      have := hw c (by simp)
      simp only [isWs, Bool.or_eq_true, beq_iff_eq] at this
      rcases this with ((rfl | rfl) | rfl) | rfl <;> decide
  have hr : Reads (printIndent newer o ++ w) (meaning o) := by
    obtain ⟨n, hn⟩ := value_layout newer indented_ok o 0 h w hstop
    refine ⟨n, w, hn, ?_⟩
    have := skip_blank hw []
    rw [List.append_nil] at this
    exact this
  exact ⟨fun hv => reads_unique hv hr, fun hv => hv ▸ hr⟩

/-! ## Theorem -/

/-- **C108**: `-explain` prints one JSON text: an array of all definitions of the table in their order, each complete,
whatever the order in which the maps are walked. -/
theorem C108_explain (newer : Bool) {scale : String → List Byte} (hs : ∀ s, IsNumber (scale s)) {ord : Nat → MapOrder}
    (ho : ∀ i k s l, (ord i k s l).Perm l) :
    ∃ js, List.Forall₂ (PgnJson scale) Table.pgnList js ∧
      ∀ j, Reads (explain newer scale ord Table.pgnList) j ↔ j = .arr js := by
  refine ⟨_, pgns_json ho Table.pgnList shipped_known 0, fun j => ?_⟩
  have hw : Blank [10] := by intro b hb; rw [List.mem_singleton.mp hb]; decide
  exact reads_layout_blank newer (o := .arr (pgnsOut scale ord 0 Table.pgnList)) (pgns_numbers hs ord _ 0) hw j

/-! ### The hypotheses can be met -/

/-- Every factor as a number, for the examples. -/
def exampleScale (_ : String) : List Byte := bs "0.0001"

example : ∀ s, IsNumber (exampleScale s) := by intro s; unfold exampleScale IsNumber; decide +kernel

/-- Definitions with and without a table of names, and a walk through the map from its end. -/
example : ∀ i k s : Nat, ∀ l : List (Nat × String), ((fun (_ _ _ : Nat) (l : List (Nat × String)) => l.reverse) i k s l).Perm l :=
  fun _ _ _ l => List.reverse_perm l

end Argo.Json
