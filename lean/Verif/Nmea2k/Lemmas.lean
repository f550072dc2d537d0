import Verif.Nmea2k.Spec
import Mathlib.Tactic.Ring
import Mathlib.Tactic.Linarith

set_option autoImplicit false

/-! # Lemmas on bits, numbers and extraction -/

namespace Argo.Nmea2k

open Argo Argo.Nmea2k.Spec

theorem leNat_lt (l : List Byte) : leNat l < 2 ^ (8 * l.length) := by
  induction l with
  | nil => simp [leNat]
  | cons b bs ih =>
    have hb : b.toNat < 256 := b.toNat_lt
    simp only [leNat, List.length_cons]
    have : 2 ^ (8 * (bs.length + 1)) = 256 * 2 ^ (8 * bs.length) := by
      rw [Nat.mul_add, Nat.pow_add]; omega
    rw [this]; omega

theorem testBit_leNat (l : List Byte) (p : Nat) : (leNat l).testBit p = bit l p := by
  induction l generalizing p with
  | nil => simp [leNat, bit]
  | cons b bs ih =>
    have hb : b.toNat < 2 ^ 8 := b.toNat_lt
    have e : leNat (b :: bs) = 2 ^ 8 * leNat bs + b.toNat := by
      simp only [leNat]; omega
    rw [e, Nat.testBit_two_pow_mul_add _ hb]
    by_cases h : p < 8
    · rw [if_pos h]
      have h1 : p / 8 = 0 := by omega
      have h2 : p % 8 = p := by omega
      simp [bit, h1, h2]
    · rw [if_neg h, ih]
      have h1 : p / 8 = (p - 8) / 8 + 1 := by omega
      have h2 : p % 8 = (p - 8) % 8 := by omega
      simp [bit, h1, h2]

theorem bitsAt_eq (l : List Byte) (p n : Nat) : bitsAt l p n = leNat l / 2 ^ p % 2 ^ n := by
  induction n generalizing p with
  | zero => simp [bitsAt, Nat.mod_one]
  | succ n ih =>
    have e : (2:Nat) ^ (n + 1) = 2 * 2 ^ n := by rw [Nat.pow_succ]; omega
    rw [bitsAt, ih, e, Nat.mod_mul, Nat.div_div_eq_div_mul, ← Nat.pow_succ, ← testBit_leNat,
      Nat.testBit_eq_decide_div_mod_eq]
    congr 1
    rcases Nat.mod_two_eq_zero_or_one (leNat l / 2 ^ p) with h | h <;> simp [h]

theorem bitsAt_lt (l : List Byte) (p n : Nat) : bitsAt l p n < 2 ^ n := by
  rw [bitsAt_eq]; exact Nat.mod_lt _ (Nat.two_pow_pos n)

theorem leNat_append (a b : List Byte) : leNat (a ++ b) = leNat a + 2 ^ (8 * a.length) * leNat b := by
  induction a with
  | nil => simp [leNat]
  | cons x xs ih =>
    simp only [List.cons_append, leNat, ih, List.length_cons]
    have : 2 ^ (8 * (xs.length + 1)) = 256 * 2 ^ (8 * xs.length) := by
      rw [Nat.mul_add, Nat.pow_add]; omega
    rw [this]; ring

theorem leNat_zeros (n : Nat) : leNat (List.replicate n 0) = 0 := by
  induction n with
  | zero => rfl
  | succ n ih => simp [List.replicate_succ, leNat, ih]

theorem leNat_pad (l : List Byte) (n : Nat) : leNat (l ++ List.replicate n 0) = leNat l := by
  rw [leNat_append, leNat_zeros]; omega

theorem leNat_drop (l : List Byte) (k : Nat) : leNat (l.drop k) = leNat l / 2 ^ (8 * k) := by
  induction k generalizing l with
  | zero => simp
  | succ k ih =>
    cases l with
    | nil => simp [leNat]
    | cons b bs =>
      have hb : b.toNat < 256 := b.toNat_lt
      rw [List.drop_succ_cons, ih, leNat]
      have : 2 ^ (8 * (k + 1)) = 256 * 2 ^ (8 * k) := by
        rw [Nat.mul_add, Nat.pow_add]; omega
      rw [this, ← Nat.div_div_eq_div_mul]
      congr 1; omega

theorem leNat_take (l : List Byte) (k : Nat) : leNat (l.take k) = leNat l % 2 ^ (8 * k) := by
  by_cases h : k ≤ l.length
  · have e := leNat_append (l.take k) (l.drop k)
    rw [List.take_append_drop, List.length_take, Nat.min_eq_left h] at e
    rw [e, Nat.add_mul_mod_self_left, Nat.mod_eq_of_lt]
    have := leNat_lt (l.take k)
    rwa [List.length_take, Nat.min_eq_left h] at this
  · rw [List.take_of_length_le (by omega), Nat.mod_eq_of_lt]
    exact Nat.lt_of_lt_of_le (leNat_lt l) (Nat.pow_le_pow_right (by omega) (by omega))

/-- The window `data[start:stop]` as a number. -/
theorem leNat_window (l : List Byte) (start stop : Nat) :
    leNat ((l.take stop).drop start) = bitsAt l (8 * start) (8 * (stop - start)) := by
  by_cases h : start ≤ stop
  · rw [leNat_drop, leNat_take, bitsAt_eq]
    have e : 8 * stop = 8 * start + 8 * (stop - start) := by omega
    rw [e, Nat.pow_add, Nat.mod_mul_right_div_self]
  · have : (l.take stop).drop start = [] := by
      apply List.drop_eq_nil_of_le
      rw [List.length_take]; omega
    have h2 : stop - start = 0 := by omega
    simp [this, h2, leNat, bitsAt]

theorem bitsAt_shift (l : List Byte) (p n o w : Nat) :
    bitsAt l p n / 2 ^ o % 2 ^ w = bitsAt l (p + o) (min w (n - o)) := by
  rw [bitsAt_eq, bitsAt_eq, Nat.pow_add, ← Nat.div_div_eq_div_mul]
  generalize leNat l / 2 ^ p = x
  by_cases h : o ≤ n
  · obtain ⟨k, rfl⟩ := Nat.exists_eq_add_of_le h
    rw [Nat.pow_add, Nat.mod_mul_right_div_self, Nat.add_sub_cancel_left]
    by_cases hw : w ≤ k
    · rw [Nat.min_eq_left hw, Nat.mod_mod_of_dvd _ (Nat.pow_dvd_pow 2 hw)]
    · rw [Nat.min_eq_right (by omega)]
      apply Nat.mod_eq_of_lt
      exact Nat.lt_of_lt_of_le (Nat.mod_lt _ (Nat.two_pow_pos k))
        (Nat.pow_le_pow_right (by omega) (by omega))
  · have h0 : n - o = 0 := by omega
    rw [h0, Nat.min_zero, Nat.pow_zero, Nat.mod_one, Nat.div_eq_of_lt, Nat.zero_mod]
    exact Nat.lt_of_lt_of_le (Nat.mod_lt _ (Nat.two_pow_pos n))
      (Nat.pow_le_pow_right (by omega) (by omega))

theorem maskOf_eq {w : Nat} (h : w ≤ 64) : maskOf w = 2 ^ w - 1 := by
  unfold maskOf
  have e : (64 + 2 ^ 32 - w) % 2 ^ 32 = 64 - w := by
    have : 64 + 2 ^ 32 - w = (64 - w) + 2 ^ 32 := by omega
    rw [this, Nat.add_mod_right, Nat.mod_eq_of_lt]; omega
  rw [e]
  have h64 : (2:Nat) ^ 64 = 2 ^ (64 - w) * 2 ^ w := by rw [← Nat.pow_add]; congr 1; omega
  rw [h64]
  have hp := Nat.two_pow_pos (64 - w)
  have hq := Nat.two_pow_pos w
  apply Nat.div_eq_of_lt_le
  · rw [Nat.mul_comm, Nat.mul_sub, Nat.mul_one]; omega
  · have : 2 ^ w - 1 + 1 = 2 ^ w := by omega
    rw [this, Nat.mul_comm]
    have := Nat.mul_pos hp hq
    rw [Nat.mul_comm]; omega

theorem dead_test {w x : Nat} (h : x < 2 ^ w) : (2 ^ w % 2 ^ 64) &&& x = 0 := by
  by_cases hw : w < 64
  · rw [Nat.mod_eq_of_lt (Nat.pow_lt_pow_right (by omega) hw)]
    apply Nat.eq_of_testBit_eq
    intro i
    rw [Nat.testBit_and, Nat.testBit_two_pow, Nat.zero_testBit]
    by_cases hi : w = i
    · subst hi; simp [Nat.testBit_lt_two_pow h]
    · simp [hi]
  · have : (2:Nat) ^ 64 ∣ 2 ^ w := Nat.pow_dvd_pow 2 (by omega)
    rw [Nat.mod_eq_zero_of_dvd this, Nat.zero_and]

theorem toSigned_eq (w x : Nat) : toSigned w x = twos w (x % 2 ^ w) := rfl

theorem sub_len {s : Slice} {lo hi : Nat} (h1 : lo ≤ hi) (h2 : hi ≤ s.vis.length) :
    ∃ r, s.sub lo hi = .ok r ∧ r.vis = (s.vis.take hi).drop lo ∧ r.vis.length = hi - lo := by
  refine ⟨_, Slice.sub_vis h1 h2, rfl, ?_⟩
  simp [Nat.min_eq_left h2]

theorem window_eq (l : List Byte) {lo hi : Nat} :
    (l.take hi).drop lo = bytesAt l lo (hi - lo) := by
  rw [bytesAt, List.drop_take]

theorem numeric_eq (f : Field) {x : Nat}
    (hs : f.signed = true → f.size ≤ 64 → x < 2 ^ f.size) (hz : f.size ≤ 64) :
    numberValue f x = numeric f x := by
  have key : f.signed = true → toSigned (signedWidth f.size) x = fieldInt f x := by
    intro h
    have hxs := hs h hz
    have hle : ∀ w, f.size ≤ w → x % 2 ^ w = x := fun w hw =>
      Nat.mod_eq_of_lt (Nat.lt_of_lt_of_le hxs (Nat.pow_le_pow_right (by omega) hw))
    unfold fieldInt signedWidth
    rw [if_pos h]
    split
    · rw [toSigned_eq, hle 8 (by assumption)]
    · split
      · rw [toSigned_eq, hle 16 (by assumption)]
      · split
        · rw [toSigned_eq, hle 32 (by assumption)]
        · rw [toSigned_eq, hle 64 hz]
  have hr : f.res.isRaw = rawRes f.res := by cases f.res <;> rfl
  unfold numberValue numeric
  rw [hr]
  cases hsg : f.signed
  · have e : fieldInt f x = (x : Int) := by simp [fieldInt, hsg]
    simp [e]
  · have e := key hsg
    simp only [e, if_true]
    rfl

/-- `extractNumber` on a window inside the message. -/
theorem extractNumber_eq (m : RawMessage) (f : Field) {start stop offset width : Nat}
    (h1 : start ≤ stop) (h2 : stop ≤ m.data.vis.length) (hw : stop - start ≤ 8 → width ≤ 64) :
    extractNumber m f start stop offset width =
      .ok (if stop - start > 8 then none
        else some (numberValue f
          (bitsAt m.data.vis (8 * start + offset) (min width (8 * (stop - start) - offset))))) := by
  obtain ⟨r, hr, hv, hl⟩ := sub_len h1 h2
  unfold extractNumber
  by_cases h8 : stop - start > 8
  · simp [h8, hr, bind, Except.bind, pure, Except.pure]
  · have hl8 : r.vis.length ≤ 8 := by omega
    have hnum : leNat (r.vis.take 8 ++ List.replicate (8 - r.vis.length) 0) =
        bitsAt m.data.vis (8 * start) (8 * (stop - start)) := by
      rw [List.take_of_length_le hl8, leNat_pad, hv, leNat_window]
    simp only [h8, if_false, hr, bind, Except.bind, hnum, pure, Except.pure]
    rw [maskOf_eq (hw (by omega)), Nat.and_two_pow_sub_one_eq_mod, bitsAt_shift]
    rw [if_neg]
    have := bitsAt_lt m.data.vis (8 * start + offset) (min width (8 * (stop - start) - offset))
    have h3 : bitsAt m.data.vis (8 * start + offset) (min width (8 * (stop - start) - offset))
        < 2 ^ width := Nat.lt_of_lt_of_le this (Nat.pow_le_pow_right (by omega) (by omega))
    exact fun h => h (dead_test h3)

end Argo.Nmea2k
