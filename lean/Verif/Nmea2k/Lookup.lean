import Verif.Nmea2k.Table
import Verif.Nmea2k.Lemmas

set_option autoImplicit false

/-! # Table lookup and field offsets: C33, C34 -/

namespace Argo.Nmea2k

open Argo Argo.Nmea2k.Spec

theorem firstFrom_spec (id : Nat) (l : List Pgn) (b : Nat) :
    (∃ k p, firstFrom id b l = some (b + k, p) ∧ l[k]? = some p ∧ p.pgn = id ∧
      ∀ k' q, k' < k → l[k']? = some q → q.pgn ≠ id) ∨
    (firstFrom id b l = none ∧ ∀ q ∈ l, q.pgn ≠ id) := by
  induction l generalizing b with
  | nil => right; simp [firstFrom]
  | cons a as ih =>
    unfold firstFrom
    by_cases h : id = a.pgn
    · left
      refine ⟨0, a, by simp [h], rfl, h.symm, ?_⟩
      intro k' q hk; omega
    · rw [if_neg h]
      rcases ih (b + 1) with ⟨k, p, h1, h2, h3, h4⟩ | ⟨h1, h2⟩
      · left
        refine ⟨k + 1, p, by rw [h1]; congr 2; omega, by simpa using h2, h3, ?_⟩
        intro k' q hk hq
        cases k' with
        | zero => simp at hq; subst hq; exact fun e => h e.symm
        | succ k' => exact h4 k' q (by omega) (by simpa using hq)
      · right
        refine ⟨h1, ?_⟩
        intro q hq
        rcases List.mem_cons.mp hq with e | hq
        · subst e; exact fun e => h e.symm
        · exact h2 q hq

theorem lastFrom_spec (pp : List Pgn) (id : Nat) (n : Nat) (hn : n ≤ pp.length) :
    (∃ k p, k < n ∧ lastFrom pp id n = some (k, p) ∧ pp[k]? = some p ∧ p.pgn = id ∧
      ∀ k' q, k < k' → k' < n → pp[k']? = some q → q.pgn ≠ id) ∨
    (lastFrom pp id n = none ∧ ∀ k' q, k' < n → pp[k']? = some q → q.pgn ≠ id) := by
  induction n with
  | zero => right; exact ⟨rfl, by intro k' q h; omega⟩
  | succ n ih =>
    have hlt : n < pp.length := by omega
    unfold lastFrom
    rw [List.getElem?_eq_getElem hlt]
    simp only
    by_cases h : id = pp[n].pgn
    · left
      refine ⟨n, pp[n], by omega, by rw [if_pos h], List.getElem?_eq_getElem hlt, h.symm, ?_⟩
      intro k' q h1 h2; omega
    · rw [if_neg h]
      rcases ih (by omega) with ⟨k, p, h0, h1, h2, h3, h4⟩ | ⟨h1, h2⟩
      · left
        refine ⟨k, p, by omega, h1, h2, h3, ?_⟩
        intro k' q hk hk' hq
        by_cases e : k' = n
        · subst e
          rw [List.getElem?_eq_getElem hlt] at hq
          injection hq with hq; subst hq; exact fun e => h e.symm
        · exact h4 k' q hk (by omega) hq
      · right
        refine ⟨h1, ?_⟩
        intro k' q hk hq
        by_cases e : k' = n
        · subst e
          rw [List.getElem?_eq_getElem hlt] at hq
          injection hq with hq; subst hq; exact fun e => h e.symm
        · exact h2 k' q (by omega) hq

/-- C33, First: on a non-empty table, the first entry with the PGN and its index; entry 0 when no
entry has it. -/
theorem C33_first (pp : List Pgn) (id : Nat) (hne : pp ≠ []) :
    ∃ i p, first pp id = .ok (i, p) ∧ pp[i]? = some p ∧
      ((p.pgn = id ∧ ∀ k q, k < i → pp[k]? = some q → q.pgn ≠ id) ∨
       (i = 0 ∧ ∀ q ∈ pp, q.pgn ≠ id)) := by
  unfold first
  rcases firstFrom_spec id pp 0 with ⟨k, p, h1, h2, h3, h4⟩ | ⟨h1, h2⟩
  · rw [h1]
    exact ⟨_, _, rfl, by simpa using h2, Or.inl ⟨h3, by simpa using h4⟩⟩
  · rw [h1]
    cases pp with
    | nil => exact absurd rfl hne
    | cons a as => exact ⟨0, a, rfl, rfl, Or.inr ⟨rfl, h2⟩⟩

/-- C33, Last: on a non-empty table, the last entry with the PGN and its index; entry 0 when no
entry has it. -/
theorem C33_last (pp : List Pgn) (id : Nat) (hne : pp ≠ []) :
    ∃ i p, last pp id = .ok (i, p) ∧ pp[i]? = some p ∧
      ((p.pgn = id ∧ ∀ k q, i < k → pp[k]? = some q → q.pgn ≠ id) ∨
       (i = 0 ∧ ∀ q ∈ pp, q.pgn ≠ id)) := by
  unfold last
  rcases lastFrom_spec pp id pp.length (Nat.le_refl _) with ⟨k, p, h0, h1, h2, h3, h4⟩ | ⟨h1, h2⟩
  · rw [h1]
    refine ⟨_, _, rfl, h2, Or.inl ⟨h3, ?_⟩⟩
    intro k' q hk hq
    have : k' < pp.length := by
      rcases Nat.lt_or_ge k' pp.length with h | h
      · exact h
      · rw [List.getElem?_eq_none h] at hq; cases hq
    exact h4 k' q hk this hq
  · rw [h1]
    have hall : ∀ q ∈ pp, q.pgn ≠ id := by
      intro q hq
      obtain ⟨n, hn, e⟩ := List.getElem_of_mem hq
      exact h2 n q hn (by rw [List.getElem?_eq_getElem hn, e])
    cases pp with
    | nil => exact absurd rfl hne
    | cons a as => exact ⟨0, a, rfl, rfl, Or.inr ⟨rfl, hall⟩⟩

/-- C33: the definition of a message is the first one of the message's own PGN, whatever PGN is asked for; a
message whose PGN is unknown has the table's first definition. -/
theorem C33_definition (pp : List Pgn) (m : RawMessage) (asked : Nat) (hne : pp ≠ []) :
    ∃ i p, getPgnDefinition pp m asked = .ok p ∧ pp[i]? = some p ∧
      ((p.pgn = m.pgn ∧ ∀ k q, k < i → pp[k]? = some q → q.pgn ≠ m.pgn) ∨
       (i = 0 ∧ ∀ q ∈ pp, q.pgn ≠ m.pgn)) := by
  obtain ⟨i, p, h1, h2, h3⟩ := C33_first pp m.pgn hne
  exact ⟨i, p, by simp [getPgnDefinition, h1, bind, Except.bind, pure, Except.pure], h2, h3⟩

/-- C33: First never exceeds Last. -/
theorem C33_first_le_last (pp : List Pgn) (id : Nat) {i j : Nat} {p q : Pgn}
    (hf : first pp id = .ok (i, p)) (hl : last pp id = .ok (j, q)) : i ≤ j := by
  by_cases hne : pp = []
  · subst hne; simp [first, firstFrom] at hf
  obtain ⟨i', p', h1, h2, h3⟩ := C33_first pp id hne
  obtain ⟨j', q', g1, g2, g3⟩ := C33_last pp id hne
  rw [hf] at h1; rw [hl] at g1
  injection h1 with h1; injection h1 with ha hb
  injection g1 with g1; injection g1 with ga gb
  subst ha hb ga gb
  rcases h3 with ⟨_, h3⟩ | ⟨h3, _⟩
  · rcases g3 with ⟨g3, _⟩ | ⟨_, g3⟩
    · rcases Nat.lt_or_ge j i with h | h
      · exact absurd g3 (h3 j q h g2)
      · exact h
    · have := List.mem_of_getElem? h2
      rcases Nat.lt_or_ge j i with h | h
      · rename_i hp _; exact absurd hp (g3 _ this)
      · exact h
  · omega

/-- Boolean check that equal PGNs are adjacent: walking the table, a PGN already left behind does
not come back. -/
def contiguousB : List Pgn → Bool
  | [] => true
  | p :: ps => (ps.dropWhile (fun q => q.pgn == p.pgn)).all (fun q => q.pgn != p.pgn) && contiguousB ps

theorem contiguousB_sound (l : List Pgn) (h : contiguousB l = true) :
    ∀ (i k j : Nat) (p q r : Pgn), i ≤ k → k ≤ j → l[i]? = some p → l[k]? = some q →
      l[j]? = some r → p.pgn = r.pgn → q.pgn = p.pgn := by
  induction l with
  | nil => intro i k j p q r _ _ hp; simp at hp
  | cons a as ih =>
    unfold contiguousB at h
    rw [Bool.and_eq_true] at h
    intro i k j p q r hik hkj hp hq hr hpr
    cases i with
    | succ i =>
      cases k with
      | zero => omega
      | succ k =>
        cases j with
        | zero => omega
        | succ j =>
          exact ih h.2 i k j p q r (by omega) (by omega) (by simpa using hp) (by simpa using hq)
            (by simpa using hr) hpr
    | zero =>
      simp at hp; subst hp
      cases k with
      | zero => simp at hq; rw [hq]
      | succ k =>
        cases j with
        | zero => omega
        | succ j =>
          have hq' : as[k]? = some q := by simpa using hq
          have hr' : as[j]? = some r := by simpa using hr
          -- if `as[k]` differs, `as[j]` lies in the dropped part
          by_contra hne
          have key : ∀ (l : List Pgn) (k j : Nat), k ≤ j → l[k]? = some q → l[j]? = some r →
              q.pgn ≠ a.pgn → r ∈ l.dropWhile (fun q => q.pgn == a.pgn) := by
            intro l
            induction l with
            | nil => intro k j _ hk; simp at hk
            | cons b bs ih2 =>
              intro k j hkj hk hj hne
              rw [List.dropWhile_cons]
              by_cases hb : b.pgn == a.pgn
              · rw [if_pos hb]
                cases k with
                | zero =>
                  simp at hk; subst hk; simp at hb; exact absurd hb hne
                | succ k =>
                  cases j with
                  | zero => omega
                  | succ j => exact ih2 k j (by omega) (by simpa using hk) (by simpa using hj) hne
              · rw [if_neg hb]; exact List.mem_of_getElem? hj
          have hmem := key as k j (by omega) hq' hr' hne
          have := List.all_eq_true.mp h.1 r hmem
          simp at this
          exact this hpr.symm

/-- C33: in the shipped table all definitions of one PGN occupy a contiguous index range. -/
theorem C33_contiguous (i k j : Nat) (p q r : Pgn) (hik : i ≤ k) (hkj : k ≤ j)
    (hp : Table.pgnList[i]? = some p) (hq : Table.pgnList[k]? = some q)
    (hr : Table.pgnList[j]? = some r) (e : p.pgn = r.pgn) : q.pgn = p.pgn :=
  contiguousB_sound _ (by decide +kernel) i k j p q r hik hkj hp hq hr e

example : getPgnDefinition Table.pgnList ⟨2, 127245, 1, 255, 0, ⟨[], []⟩⟩ 60928 = .ok Table.p76 := by decide +kernel

example : first Table.pgnList 126720 = .ok (58, Table.p58) ∧
    last Table.pgnList 126720 = .ok (69, Table.p69) := by
  constructor <;> decide +kernel

theorem offsetOf_eq (fs : List Field) (k : Nat) : offsetOf fs k = position fs k := by
  induction fs generalizing k with
  | nil => cases k <;> simp [offsetOf, position]
  | cons f fs ih =>
    cases k with
    | zero => simp [offsetOf, position]
    | succ k => simp [offsetOf, ih, position]

/-- C34: for a valid index, the byte and bit of the sum of the sizes of the earlier fields, with
the number of whole bytes of the field; an invalid index panics. -/
theorem C34_offsets (p : Pgn) (k : Nat) :
    fieldOffsets p k =
      match p.fieldList[k]? with
      | some f =>
        .ok (position p.fieldList k / 8, position p.fieldList k / 8 + byteCount f.size,
          position p.fieldList k % 8, f.size)
      | none => .error .index := by
  unfold fieldOffsets goIndex
  rw [if_pos (by omega), Int.toNat_natCast]
  cases h : p.fieldList[k]? with
  | none => rfl
  | some f =>
    simp only [bind, Except.bind, pure, Except.pure, offsetOf_eq, byteCount]
    congr 3
    have : min ((f.size + 7) / 8 * 8) f.size = f.size := by omega
    rw [this]

example : fieldOffsets Table.p3 6 = .ok (6, 7, 1, 7) := by decide +kernel

end Argo.Nmea2k
