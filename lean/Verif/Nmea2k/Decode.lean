import Verif.Nmea2k.Extract
import Verif.Nmea2k.Lookup

set_option autoImplicit false

/-! # One field: the decoder computes the specified value -/

namespace Argo.Nmea2k

open Argo Argo.Nmea2k.Spec

/-- Fields whose decoding involves no failing type assertion: no sub-lookup, and lookups are
unsigned. -/
def plainField (f : Field) : Bool :=
  f.res ≠ .lookup2 && !(f.signed && (f.res = .lookup || f.res = .manufacturer))

/-- A length-prefixed string at byte `b` whose length does not wrap. -/
def lzSafe (data : List Byte) (b : Nat) : Prop :=
  ∀ l, data[b]? = some l → l ≠ 0 → b + l.toNat < 256

theorem number_eq (m : RawMessage) (f : Field) (pos : Nat)
    (hc : pos / 8 + byteCount f.size ≤ m.data.vis.length) :
    extractNumber m f (pos / 8) (byteCount f.size + pos / 8) (pos % 8) f.size =
      .ok (if byteCount f.size ≤ 8 then
        some (numeric f (bitsAt m.data.vis pos (readable pos f.size))) else none) := by
  have hbc : byteCount f.size = (f.size + 7) / 8 := rfl
  rw [extractNumber_eq m f (by omega) (by omega) (by omega)]
  have e1 : byteCount f.size + pos / 8 - pos / 8 = byteCount f.size := by omega
  have e2 : 8 * (pos / 8) + pos % 8 = pos := by omega
  rw [e1, e2]
  by_cases h : byteCount f.size ≤ 8
  · rw [if_neg (by omega), if_pos h]
    congr 2
    have hr : readable pos f.size = min f.size (8 * byteCount f.size - pos % 8) := rfl
    rw [← hr]
    refine numeric_eq f (fun _ _ => ?_) (by omega)
    have := bitsAt_lt m.data.vis pos (readable pos f.size)
    exact Nat.lt_of_lt_of_le this (Nat.pow_le_pow_right (by omega) (by omega))
  · rw [if_pos (by omega), if_neg h]

theorem decodeField_eq (env : Env) (m : RawMessage) (d : Pgn) (dm : DataMap) (f : Field) (pos : Nat)
    (hc : pos / 8 + byteCount f.size ≤ m.data.vis.length) (hp : plainField f = true)
    (hlz : f.res = .stringLZ → lzSafe m.data.vis (pos / 8)) :
    decodeField env m d dm f (pos / 8) (byteCount f.size + pos / 8) (pos % 8) f.size =
      .ok (fieldValue env m.data.vis f pos) := by
  have hw1 : pos / 8 ≤ byteCount f.size + pos / 8 := by omega
  have hw2 : byteCount f.size + pos / 8 ≤ m.data.vis.length := by omega
  have e1 : byteCount f.size + pos / 8 - pos / 8 = byteCount f.size := by omega
  have hub := bitsAt_lt m.data.vis (8 * (pos / 8)) (8 * byteCount f.size)
  have hnum := number_eq m f pos hc
  unfold decodeField fieldValue
  cases hres : f.res with
  | latitude =>
    simp only
    rw [C39_latlon m hw1 hw2, e1]
    split
    · have : ∀ u : Nat, (u = 0x7FFFFFFE ∨ u = 0x7FFFFFFF) ↔ (0x7FFFFFFE ≤ u ∧ u ≤ 0x7FFFFFFF) := by
        intro u; omega
      simp only [this]
    · split
      · have : ∀ u : Nat, (u = 0x7FFFFFFFFFFFFFFE ∨ u = 0x7FFFFFFFFFFFFFFF) ↔
            (0x7FFFFFFFFFFFFFFE ≤ u ∧ u ≤ 0x7FFFFFFFFFFFFFFF) := by intro u; omega
        simp only [this]
      · rfl
  | longitude =>
    simp only
    rw [C39_latlon m hw1 hw2, e1]
    split
    · have : ∀ u : Nat, (u = 0x7FFFFFFE ∨ u = 0x7FFFFFFF) ↔ (0x7FFFFFFE ≤ u ∧ u ≤ 0x7FFFFFFF) := by
        intro u; omega
      simp only [this]
    · split
      · have : ∀ u : Nat, (u = 0x7FFFFFFFFFFFFFFE ∨ u = 0x7FFFFFFFFFFFFFFF) ↔
            (0x7FFFFFFFFFFFFFFE ≤ u ∧ u ≤ 0x7FFFFFFFFFFFFFFF) := by intro u; omega
        simp only [this]
      · rfl
  | date =>
    have := C40_partial m hw1 hw2
    rw [e1] at this
    simp only
    generalize bitsAt m.data.vis (8 * (pos / 8)) (8 * byteCount f.size) = u at this
    by_cases h2 : byteCount f.size = 2
    · by_cases hu : u = 0xFFFF
      · rw [this.2.1 h2 hu, if_neg (by omega)]
      · rw [this.2.2.2 h2 hu, if_pos ⟨h2, hu⟩]; rfl
    · rw [this.1 h2, if_neg (by omega)]
  | time =>
    have := C41_partial m hw1 hw2
    rw [e1] at this
    simp only at this ⊢
    generalize bitsAt m.data.vis (8 * (pos / 8)) (8 * byteCount f.size) = u at this
    by_cases h : byteCount f.size = 4 ∧ u ≠ 0xFFFFFFFF
    · rw [if_pos h] at this
      obtain ⟨hh, mi, s, ns, he, h1, h2, h3, h4⟩ := this
      rw [he, if_pos h]
      have e1 : hh = u / 36000000 := by omega
      have e2 : mi = u / 600000 % 60 := by omega
      have e3 : s = u / 10000 % 60 := by omega
      rw [← e1, ← e2, ← e3, h4]
    · rw [if_neg h] at this
      rw [this, if_neg h]
  | temperature =>
    simp only
    rw [C42_scaled m 100 hw1 hw2, e1]
    have : ∀ u : Nat, u ≤ 0xFFFC ↔ u < 0xFFFD := by intro u; omega
    simp only [this]
  | pressure =>
    simp only
    rw [C42_scaled m 1000 hw1 hw2, e1]
    have : ∀ u : Nat, u ≤ 0xFFFC ↔ u < 0xFFFD := by intro u; omega
    simp only [this]
  | sixBitAscii =>
    obtain ⟨r, hr, _, _⟩ := sub_len (s := m.data) hw1 hw2
    simp only [extract6BitASCII, hr, bind, Except.bind]; rfl
  | integer => simpa only using hnum
  | one => simpa only using hnum
  | scale s => simpa only using hnum
  | lookup =>
    have hsg : f.signed = false := by
      cases hs : f.signed with
      | false => rfl
      | true => simp [plainField, hres, hs] at hp
    simp only [extractLookupField, hnum, bind, Except.bind]
    by_cases h8 : byteCount f.size ≤ 8
    · simp only [h8, if_true, Option.map_some]
      have hv : numeric f (bitsAt m.data.vis pos (readable pos f.size)) =
          .u64 (bitsAt m.data.vis pos (readable pos f.size)) := by
        simp [numeric, rawRes, hres, hsg]
      rw [hv]
      cases f.units <;> simp only <;> try rfl
      split <;> rfl
    · simp only [h8, if_false]; rfl
  | lookup2 => simp [plainField, hres] at hp
  | manufacturer =>
    have hsg : f.signed = false := by
      cases hs : f.signed with
      | false => rfl
      | true => simp [plainField, hres, hs] at hp
    simp only [extractManufacturer, hnum, bind, Except.bind]
    by_cases h8 : byteCount f.size ≤ 8
    · simp only [h8, if_true, Option.map_some]
      have hv : numeric f (bitsAt m.data.vis pos (readable pos f.size)) =
          .u64 (bitsAt m.data.vis pos (readable pos f.size)) := by
        simp [numeric, rawRes, hres, hsg]
      rw [hv]
      simp only
      split <;> rfl
    · simp only [h8, if_false]; rfl
  | stringLZ =>
    have hl := hlz hres
    simp only
    rw [C44_partial]
    cases hg : m.data.vis[pos / 8]? with
    | none => rfl
    | some l =>
      simp only
      by_cases h0 : l = 0
      · rw [if_pos h0, if_pos (Or.inl (by rw [h0]; decide))]
      · have := hl l hg h0
        rw [if_neg h0, if_neg (by omega)]
        have hl0 : l.toNat ≠ 0 := by
          intro h; exact h0 (UInt8.toNat_inj.mp (by simpa using h))
        by_cases h1 : l.toNat = 1 ∨ m.data.vis.length < pos / 8 + l.toNat
        · rw [if_pos h1, if_pos (by omega)]
        · rw [if_neg h1, if_neg (by omega)]
  | string =>
    obtain ⟨r, hr, hv, _⟩ := sub_len (s := m.data) hw1 hw2
    simp only [hr, bind, Except.bind, hv, window_eq, e1]; rfl
  | ascii =>
    simp only
    by_cases h : m.data.vis.length ≤ pos / 8 + byteCount f.size
    · have : byteCount f.size + pos / 8 = m.data.vis.length := by omega
      rw [this, C43_false, if_pos h]
    · rw [C43_partial m hw1 (by omega), if_neg h, e1]
  | binary =>
    obtain ⟨r, hr, hv, _⟩ := sub_len (s := m.data) hw1 hw2
    simp only [hr, bind, Except.bind, hv, window_eq, e1]; rfl
  | float =>
    obtain ⟨r, hr, hv, _⟩ := sub_len (s := m.data) hw1 hw2
    simp only [hr, bind, Except.bind, hv, window_eq, e1]; rfl
  | notUsed => rfl

end Argo.Nmea2k
