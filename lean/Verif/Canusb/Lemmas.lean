import Verif.Canusb.Model
import Verif.Canusb.Spec

set_option autoImplicit false

/-! Helper lemmas for package canusb: parsing. -/

namespace Argo.Canusb
open CanSpec

theorem hexDigit_iff (c : Byte) (v : Nat) : hexDigit c = some v ↔ IsHexDigit c v := by
  unfold hexDigit IsHexDigit
  have := c.toNat_lt
  split
  · simp; omega
  · split
    · simp; omega
    · split
      · simp; omega
      · simp; omega

/-- digits folded from an accumulator -/
def hexFold (acc : Nat) (s : List Byte) : Option Nat :=
  s.foldlM (fun acc c => (hexDigit c).map (fun d => acc * 16 + d)) acc

theorem hexFold_nil (acc : Nat) : hexFold acc [] = some acc := rfl

theorem hexFold_snoc (acc : Nat) (s : List Byte) (c : Byte) :
    hexFold acc (s ++ [c]) = (hexFold acc s).bind
      (fun n => (hexDigit c).map (fun d => n * 16 + d)) := by
  unfold hexFold
  rw [List.foldlM_append]
  cases h : s.foldlM (fun acc c => (hexDigit c).map (fun d => acc * 16 + d)) acc with
  | none => rfl
  | some n =>
    simp only [List.foldlM_cons, List.foldlM_nil]
    cases hexDigit c <;> rfl

theorem list_snoc_induction {α : Type} {P : List α → Prop} (h0 : P [])
    (h1 : ∀ s c, P s → P (s ++ [c])) (l : List α) : P l := by
  have : ∀ r : List α, P r.reverse := by
    intro r
    induction r with
    | nil => exact h0
    | cons a r ih => rw [List.reverse_cons]; exact h1 _ _ ih
  have := this l.reverse
  rwa [List.reverse_reverse] at this

theorem hexFold_iff (s : List Byte) (n : Nat) : hexFold 0 s = some n ↔ Hex s n := by
  constructor
  · revert n
    refine list_snoc_induction (P := fun s => ∀ n, hexFold 0 s = some n → Hex s n) ?_ ?_ s
    · intro n h
      simp [hexFold_nil] at h; subst h; exact .nil
    · intro s c ih n h
      rw [hexFold_snoc] at h
      cases hs : hexFold 0 s with
      | none => simp [hs] at h
      | some k =>
        rw [hs] at h
        cases hd : hexDigit c with
        | none => simp [hd] at h
        | some v =>
          simp [hd] at h
          rw [← h, Nat.mul_comm]
          exact .snoc (ih k hs) ((hexDigit_iff c v).1 hd)
  · intro h
    induction h with
    | nil => rfl
    | snoc _ hd ih =>
      rw [hexFold_snoc, ih]
      simp [(hexDigit_iff _ _).2 hd, Nat.mul_comm]

theorem parseHex_iff (s : List Byte) (n : Nat) : parseHex s = some n ↔ s ≠ [] ∧ Hex s n := by
  unfold parseHex
  cases s with
  | nil => simp
  | cons c s =>
    have := hexFold_iff (c :: s) n
    simp only [List.isEmpty_cons, Bool.false_eq_true, if_false, ne_eq, reduceCtorEq, not_false_eq_true,
      true_and]
    exact this

theorem hex_bound {s : List Byte} {n : Nat} (h : Hex s n) : n < 16 ^ s.length := by
  induction h with
  | nil => simp
  | @snoc s n c v _ hd ih =>
    have : v < 16 := by
      rcases hd with ⟨h, _⟩ | ⟨_, h, _⟩
      · exact Nat.lt_trans h (by omega)
      · exact h
    simp only [List.length_append, List.length_cons, List.length_nil, Nat.pow_add]
    omega

/-- decoding of digit pairs -/
def decodePairs : List Byte → Option (List Byte)
  | [] => some []
  | [_] => none
  | a :: b :: r =>
    match parseHex [a, b] with
    | none => none
    | some v => (decodePairs r).map (UInt8.ofNat v :: ·)

theorem decodePairs_iff : ∀ (s d : List Byte), decodePairs s = some d ↔ HexBytes s d
  | [], d => by
    constructor
    · intro h; simp [decodePairs] at h; subst h; exact .nil
    · intro h; cases h; rfl
  | [a], d => by
    constructor
    · intro h; simp [decodePairs] at h
    · intro h; cases h
  | a :: b :: r, d => by
    have ih := decodePairs_iff r
    constructor
    · intro h
      simp only [decodePairs] at h
      cases hp : parseHex [a, b] with
      | none => simp [hp] at h
      | some v =>
        simp only [hp] at h
        cases hr : decodePairs r with
        | none => simp [hr] at h
        | some d' =>
          simp [hr] at h; subst h
          exact .cons ((parseHex_iff _ _).1 hp).2 ((ih d').1 hr)
    · intro h
      cases h with
      | cons hh hr =>
        have := (parseHex_iff _ _).2 ⟨by simp, hh⟩
        simp [decodePairs, this, (ih _).2 hr]

theorem hexBytes_length {s d : List Byte} (h : HexBytes s d) : s.length = 2 * d.length := by
  induction h with
  | nil => rfl
  | cons _ _ ih => simp; omega

theorem hexBytes_append {s1 d1 s2 d2 : List Byte} (h1 : HexBytes s1 d1) (h2 : HexBytes s2 d2) :
    HexBytes (s1 ++ s2) (d1 ++ d2) := by
  induction h1 with
  | nil => exact h2
  | cons hh _ ih => exact .cons hh ih

theorem parseData_eq (p sp : List Byte) (n i : Nat) (acc : List Byte) (h : i + 2 * n ≤ p.length) :
    parseData ⟨p, sp⟩ n i acc = .ok
      (match decodePairs ((p.drop i).take (2 * n)) with
       | some d => .ok (acc ++ d)
       | none => .error (.msg "Unable to parse data")) := by
  induction n generalizing i acc with
  | zero => simp [parseData, decodePairs]
  | succ n ih =>
    simp only [parseData]
    rw [Slice.sub_vis (by omega) (by simp; omega)]
    have h1 : i < p.length := by omega
    have h2 : i + 1 < p.length := by omega
    have e1 : p.drop i = p[i] :: p[i + 1] :: p.drop (i + 2) := by
      rw [List.drop_eq_getElem_cons h1, List.drop_eq_getElem_cons h2]
    have e2 : ((p.take (i + 2)).drop i) = [p[i], p[i + 1]] := by
      rw [List.drop_take, e1]
      have : i + 2 - i = 2 := by omega
      rw [this]; rfl
    have e3 : 2 * (n + 1) = 2 * n + 2 := by omega
    simp only [bind, Except.bind, e2, e1, e3, List.take_succ_cons, decodePairs]
    cases hp : parseHex [p[i], p[i + 1]] with
    | none => rfl
    | some v =>
      simp only []
      rw [ih (i + 2) _ (by omega)]
      cases decodePairs ((p.drop (i + 2)).take (2 * n)) <;> simp

/-- The frame-type and identifier width announced by the prefix byte. -/
def prefixInfo (b : Byte) : Option (MsgType × Nat) :=
  if b == 116 then some (.CAN_STD, 3) else if b == 84 then some (.CAN_EXT, 8)
  else if b == 114 then some (.CAN_STD_RTR, 3) else if b == 82 then some (.CAN_EXT_RTR, 8) else none

/-- the frame built from an identifier and data -/
def mkFrame (ty : MsgType) (id : Nat) (data : List Byte) : CanFrame :=
  let pf := (id >>> 16) &&& 0xFF
  let ps := (id >>> 8) &&& 0xFF
  { priority := UInt8.ofNat (id >>> 26)
    pgn := if pf ≥ 240 then (id >>> 8) &&& 0x03FFFF else (id >>> 8) &&& 0x03FF00
    source := UInt8.ofNat (id &&& 0xFF)
    destination := if pf ≥ 240 then 255 else UInt8.ofNat ps
    length := UInt8.ofNat data.length, data := data, msgType := ty, id := id, grp := 0, seq := 0 }

/-- `ParseFrame` on `pre :: rest`, in terms of the text alone. -/
def parseSpec (pre : Byte) (rest sp : List Byte) : GoM (Option CanFrame) :=
  match prefixInfo pre with
  | none => .ok none
  | some (ty, k) =>
    if rest.length + sp.length < k then .error .slice
    else match parseHex ((rest ++ sp).take k) with
      | none => .ok none
      | some n =>
        match rest[k]? with
        | none => .error .index
        | some c =>
          match hexDigit c with
          | none => .ok none
          | some m =>
            let tail := rest.drop (k + 1)
            if m ≤ 8 ∧ tail.length = 2 * m + 4 then
              match decodePairs (tail.take (2 * m)) with
              | some d => .ok (some (mkFrame ty n d))
              | none => .ok none
            else .ok none

theorem tdiv_cond (L m : Nat) :
    (((L : Int) - 4).tmod 2 ≠ 0 ∨ ((L : Int) - 4).tdiv 2 ≠ (m : Int)) ↔ L ≠ 2 * m + 4 := by
  by_cases h : 4 ≤ L
  · obtain ⟨k, rfl⟩ := Nat.exists_eq_add_of_le h
    have : ((4 + k : Nat) : Int) - 4 = (k : Int) := by omega
    have h1 : ((k : Int)).tmod 2 = ((k % 2 : Nat) : Int) := rfl
    have h2 : ((k : Int)).tdiv 2 = ((k / 2 : Nat) : Int) := rfl
    rw [this, h1, h2]
    omega
  · have : L = 0 ∨ L = 1 ∨ L = 2 ∨ L = 3 := by omega
    rcases this with rfl | rfl | rfl | rfl
    · constructor
      · intro _; omega
      · intro _; right; show (-2 : Int) ≠ _; omega
    · constructor
      · intro _; omega
      · intro _; left; decide
    · constructor
      · intro _; omega
      · intro _; right; show (-1 : Int) ≠ _; omega
    · constructor
      · intro _; omega
      · intro _; left; decide

theorem parseHex_single (c : Byte) : parseHex [c] = hexDigit c := by
  simp only [parseHex, List.isEmpty_cons, Bool.false_eq_true, if_false, List.foldlM_cons,
    List.foldlM_nil]
  cases hexDigit c <;> simp

/-- `ParseFrame` with errors collapsed to `none`. -/
def parseOpt (p : Slice) : GoM (Option CanFrame) :=
  match ParseFrame p with
  | .error e => .error e
  | .ok (.ok f) => .ok (some f)
  | .ok (.error _) => .ok none

theorem decodePairs_len {s d : List Byte} (h : decodePairs s = some d) : s.length = 2 * d.length :=
  hexBytes_length ((decodePairs_iff s d).1 h)

theorem sub_cons1 (pre : Byte) (rest sp : List Byte) (k : Nat) :
    Slice.sub ⟨pre :: rest, sp⟩ 1 (k + 1) = if rest.length + sp.length < k then .error .slice
      else .ok ⟨(rest ++ sp).take k, (rest ++ sp).drop k⟩ := by
  unfold Slice.sub
  have : Slice.cap ⟨pre :: rest, sp⟩ = rest.length + 1 + sp.length := by simp [Slice.cap]
  by_cases h : rest.length + sp.length < k
  · rw [if_pos h, if_neg (by rw [this]; omega)]
  · rw [if_neg h, if_pos (by rw [this]; omega)]; simp

theorem parseFrame_spec (pre : Byte) (rest sp : List Byte) :
    parseOpt ⟨pre :: rest, sp⟩ = parseSpec pre rest sp := by
  have hdr : (if pre == 116 then some (MsgType.CAN_STD, 4)
      else if pre == 84 then some (.CAN_EXT, 9)
      else if pre == 114 then some (.CAN_STD_RTR, 4)
      else if pre == 82 then some (.CAN_EXT_RTR, 9)
      else none) = (prefixInfo pre).map (fun x => (x.1, x.2 + 1)) := by
    unfold prefixInfo
    repeat' split
    all_goals rfl
  have h0 : (rest.length + 1 == 0) = false := by simp
  unfold parseOpt ParseFrame parseSpec
  simp only [h0, Bool.false_eq_true, if_false, Slice.len, List.length_cons, Slice.get, List.getElem?_cons_zero, bind, Except.bind,
    hdr]
  cases hp : prefixInfo pre with
  | none => rfl
  | some x =>
    obtain ⟨ty, k⟩ := x
    have hk : k ≤ 8 ∧ 1 ≤ k := by
      unfold prefixInfo at hp
      repeat' split at hp
      all_goals simp at hp
      all_goals omega
    simp only [Option.map_some, sub_cons1]
    by_cases hcap : rest.length + sp.length < k
    · simp only [if_pos hcap]
    · simp only [if_neg hcap]
      cases hx : parseHex ((rest ++ sp).take k) with
      | none => rfl
      | some n =>
        have hn : n % 2 ^ 32 = n := by
          have h := hex_bound ((parseHex_iff _ _).1 hx).2
          have hl : ((rest ++ sp).take k).length ≤ 8 := by
            rw [List.length_take]; omega
          have : 16 ^ ((rest ++ sp).take k).length ≤ 16 ^ 8 := Nat.pow_le_pow_right (by omega) hl
          exact Nat.mod_eq_of_lt (by omega)
        simp only [hn, List.getElem?_cons_succ]
        cases hc : rest[k]? with
        | none => rfl
        | some c =>
          have hklt : k < rest.length := by
            rcases Nat.lt_or_ge k rest.length with h | h
            · exact h
            · rw [List.getElem?_eq_none h] at hc; cases hc
          simp only [parseHex_single]
          cases hd : hexDigit c with
          | none => rfl
          | some m =>
            simp only []
            by_cases hm : m ≤ 8
            · rw [if_pos hm]
              simp only [Slice.from', Slice.len, List.length_cons]
              rw [Slice.sub_vis (by omega) (by simp)]
              have hlen : ((rest.drop (k + 1)).length : Int) = ((rest.length - (k + 1) : Nat) : Int) := by
                rw [List.length_drop]
              have htk : (List.take (rest.length + 1) (pre :: rest)) = pre :: rest := by simp
              simp only [htk, List.drop_succ_cons, tdiv_cond]
              by_cases hL : (rest.drop (k + 1)).length = 2 * m + 4
              · have hA : m ≤ 8 ∧ (rest.drop (k + 1)).length = 2 * m + 4 := ⟨hm, hL⟩
                have hB : ¬ ((rest.drop (k + 1)).length ≠ 2 * m + 4) := by simpa using hL
                simp only [if_neg hB, if_pos hA]
                have h2 : ((((rest.drop (k + 1)).length : Int) - 4).toNat / 2) = m := by omega
                have hl : rest.length - (k + 1) = 2 * m + 4 := by rw [← hL, List.length_drop]
                rw [h2, parseData_eq _ _ _ _ _ (by simp; omega)]
                simp only [List.drop_succ_cons]
                cases hdp : decodePairs ((rest.drop (k + 1)).take (2 * m)) with
                | none => rfl
                | some d =>
                  have := decodePairs_len hdp
                  have e : m = d.length := by
                    rw [List.length_take, hL] at this; omega
                  simp only [List.nil_append, mkFrame, e]; rfl
              · have hA : ¬ (m ≤ 8 ∧ (rest.drop (k + 1)).length = 2 * m + 4) := fun h => hL h.2
                have hB : (rest.drop (k + 1)).length ≠ 2 * m + 4 := hL
                simp only [if_pos hB, if_neg hA]; rfl
            · have hA : ¬ (m ≤ 8 ∧ (rest.drop (k + 1)).length = 2 * m + 4) := fun h => hm h.1
              simp only [if_neg hm, if_neg hA]; rfl

end Argo.Canusb
