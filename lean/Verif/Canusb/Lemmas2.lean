import Verif.Canusb.Lemmas

set_option autoImplicit false

/-! Helper lemmas for package canusb: transmission and registry. -/

namespace Argo.Canusb
open CanSpec

theorem hexChar_digit (d : Nat) (h : d < 16) : IsHexDigit (hexChar d) d := by
  unfold hexChar IsHexDigit
  split
  · left; refine ⟨by omega, ?_⟩
    rw [UInt8.toNat_ofNat']; omega
  · right; refine ⟨by omega, h, Or.inl ?_⟩
    rw [UInt8.toNat_ofNat']; omega

theorem hex_append {s t : List Byte} {n m : Nat} (hs : Hex s n) (ht : Hex t m) :
    Hex (s ++ t) (n * 16 ^ t.length + m) := by
  induction ht with
  | nil => simpa using hs
  | @snoc t m c v _ hd ih =>
    have := Hex.snoc ih hd
    rw [List.append_assoc] at this
    rw [List.length_append, List.length_singleton, Nat.pow_succ]
    have e : 16 * (n * 16 ^ t.length + m) + v = n * (16 ^ t.length * 16) + (16 * m + v) := by
      rw [Nat.mul_add, ← Nat.add_assoc, Nat.mul_comm 16 (n * _), Nat.mul_assoc]
    rwa [← e]

theorem hex2_hex (b : Byte) : Hex (hex2 b) b.toNat := by
  have hb := b.toNat_lt
  have h1 := Hex.snoc Hex.nil (hexChar_digit (b.toNat / 16) (by omega))
  have h2 := Hex.snoc h1 (hexChar_digit (b.toNat % 16) (by omega))
  have e : 16 * (16 * 0 + b.toNat / 16) + b.toNat % 16 = b.toNat := by omega
  rw [e] at h2
  exact h2

theorem hex2_bytes (d : List Byte) : HexBytes (d.flatMap hex2) d := by
  induction d with
  | nil => exact .nil
  | cons b d ih =>
    have := HexBytes.cons (hex2_hex b) ih
    rw [UInt8.ofNat_toNat] at this
    exact this

/-- The text of an extended frame, without the final carriage return. -/
def bodyText (b0 b1 b2 b3 : Byte) (data : List Byte) : List Byte :=
  84 :: (hex2 b0 ++ hex2 b1 ++ hex2 b2 ++ hex2 b3 ++ hex1 (UInt8.ofNat data.length)
    ++ data.flatMap hex2)

theorem bodyText_lawicel (b0 b1 b2 b3 : Byte) (data ts : List Byte) (hl : data.length ≤ 8)
    (hts : ts.length = 4) :
    Lawicel (bodyText b0 b1 b2 b3 data ++ ts)
      (b0.toNat * 2 ^ 24 + b1.toNat * 2 ^ 16 + b2.toNat * 2 ^ 8 + b3.toNat) data := by
  have hd : (UInt8.ofNat data.length).toNat = data.length := by
    rw [UInt8.toNat_ofNat']; omega
  refine ⟨84, hex2 b0 ++ hex2 b1 ++ hex2 b2 ++ hex2 b3, hexChar data.length, data.flatMap hex2, ts,
    ?_, Or.inr ⟨Or.inl rfl, rfl⟩, ?_, hexChar_digit _ (by omega), hl, hex2_bytes data, hts⟩
  · have : hex1 (UInt8.ofNat data.length) = [hexChar data.length] := by
      unfold hex1; rw [hd, if_pos (by omega)]
    simp [bodyText, this]
  · have h := hex_append (hex_append (hex_append (hex2_hex b0) (hex2_hex b1)) (hex2_hex b2)) (hex2_hex b3)
    have e : ((b0.toNat * 16 ^ (hex2 b1).length + b1.toNat) * 16 ^ (hex2 b2).length + b2.toNat)
        * 16 ^ (hex2 b3).length + b3.toNat
        = b0.toNat * 2 ^ 24 + b1.toNat * 2 ^ 16 + b2.toNat * 2 ^ 8 + b3.toNat := by
      have h2 : ∀ b, (hex2 b).length = 2 := fun _ => rfl
      rw [h2, h2, h2]; omega
    rw [e] at h
    exact h

/-- `Write` on a buffer `[pri, p0, p1, p2, dst, len] ++ data ++ rest` with `len = |data| ≤ 8`. -/
theorem Write_text (p : CanPort) (pri p0 p1 p2 dst len : Byte) (data rest : List Byte)
    (hlen : len.toNat = data.length) (hl : data.length ≤ 8) :
    Write p ⟨pri :: p0 :: p1 :: p2 :: dst :: len :: (data ++ rest), []⟩
      = .ok (p.port.script p.port.log.length,
          { p with port := { p.port with log := p.port.log ++
            [bodyText (pri <<< 2 + (p0 &&& 1)) p1 (if p1 < 240 then dst else p2) p.a data ++ [13]] } },
          ⟨pri :: p0 :: p1 :: (if p1 < 240 then dst else p2) :: dst :: len :: (data ++ rest), []⟩) := by
  have hd : UInt8.ofNat data.length = len := by
    rw [← hlen, UInt8.ofNat_toNat]
  have h6 : (6 + len).toNat = 6 + data.length := by
    rw [UInt8.toNat_add, hlen]; simp; omega
  have hgt : ¬ (len > 8) := by
    intro h
    have := UInt8.lt_iff_toNat_lt.1 h
    rw [hlen] at this; simp at this; omega
  have hs1 : Slice.sub ⟨pri :: p0 :: p1 :: p2 :: dst :: len :: (data ++ rest), []⟩ 1 4
      = .ok ⟨[p0, p1, p2], dst :: len :: (data ++ rest)⟩ := by
    rw [Slice.sub_vis (by omega) (by simp)]; simp
  have hs2 : Slice.sub ⟨pri :: p0 :: p1 :: p2 :: dst :: len :: (data ++ rest), []⟩ 6
      (6 + data.length) = .ok ⟨data, rest⟩ := by
    rw [Slice.sub_vis (by omega) (by simp; omega)]
    simp [Nat.add_comm 6]
  simp only [Write, hs1, bind, Except.bind, Slice.get, List.getElem?_cons_zero,
    List.getElem?_cons_succ, h6, hs2, hgt, if_false, Port.write, pure, Except.pure, bodyText, hd]
  by_cases hp : p1 < 240
  · simp [hp]
  · simp [hp]

end Argo.Canusb
