import Verif.Nmea2k.Values

set_option autoImplicit false

/-! # Messages shorter than their first field -/

namespace Argo.Nmea2k

open Argo Argo.Nmea2k.Spec

variable {tbl : List Pgn} {env : Env} {m : RawMessage}

/-- A message that is not empty but shorter than its first field, if that is a latitude, a longitude or a date: the
field has no value, and nothing else is read. -/
theorem short_first {i : Nat} {d : Pgn} (ho : onlyDefinition tbl m.pgn i d) {f0 f1 : Field} {fs : List Field}
    (hfl : d.fieldList = f0 :: f1 :: fs) (hs1 : 1 ≤ byteCount f1.size)
    (hres : (f0.res = .latitude ∨ f0.res = .longitude) ∧ f0.size = 32 ∨ f0.res = .date ∧ f0.size = 16)
    (h1 : m.data.vis ≠ []) (h2 : m.data.vis.length < byteCount f0.size) {p : Parsed}
    (h : ParsePacket tbl env m (.ok p)) : p = ⟨m, i, [(0, .nil)]⟩ := by
  obtain ⟨hf, hl⟩ := first_only ho
  have hpos : 0 < m.data.vis.length := List.length_pos_iff.mpr h1
  have hsub : m.data.sub 0 m.data.vis.length = .ok ⟨m.data.vis, m.data.spare⟩ := by
    unfold Slice.sub Slice.cap
    simp
  unfold byteCount at h2 hs1
  have hdec : ∀ dm bit bits, decodeField env m d dm f0 0 m.data.vis.length bit bits = .ok none := by
    intro dm bit bits
    rcases hres with ⟨hr | hr, hz⟩ | ⟨hr, hz⟩ <;> rw [hz] at h2 <;> unfold decodeField <;> rw [hr]
    · simp only [extractLatLon, hsub, bind, Except.bind, pure, Except.pure]
      rw [if_neg (by omega), if_neg (by omega)]
    · simp only [extractLatLon, hsub, bind, Except.bind, pure, Except.pure]
      rw [if_neg (by omega), if_neg (by omega)]
    · simp only [extractDate, hsub, bind, Except.bind, pure, Except.pure]
      rw [if_pos (by omega)]
  have hm : min ((f0.size + 7) / 8) m.data.vis.length = m.data.vis.length := by omega
  have hb : min (m.data.vis.length * 8) f0.size = m.data.vis.length * 8 := by
    rcases hres with ⟨_, hz⟩ | ⟨_, hz⟩ <;> rw [hz] at h2 ⊢ <;> omega
  have s1 : step tbl env m i (i == i) ⟨i, d, 0, 0, 0, 0, i, []⟩ =
      .ok (.inl ⟨i, d, 1, 1, m.data.vis.length, 0, i, [(0, .nil)]⟩) := by
    have hlt : (0 : Int) < (f0 :: f1 :: fs).length := by simp; omega
    have hg : goIndex (f0 :: f1 :: fs) 0 = .ok f0 := rfl
    have hne : ¬ (0 : Int) = ((f0 :: f1 :: fs).length : Int) - 1 := by simp; omega
    simp only [step, hfl, hlt, not_true_eq_false, if_false, hg, bind, Except.bind, Slice.len, hm, hb, Nat.add_zero,
      Nat.not_lt_zero, gt_iff_lt, Nat.lt_irrefl, or_self, hdec, selectVariant, hne, false_and, pure, Except.pure,
      Nat.mul_div_cancel _ (show 0 < 8 by omega), Nat.mul_mod_left, Nat.zero_add]
    rfl
  have s2 : step tbl env m i (i == i) ⟨i, d, 1, 1, m.data.vis.length, 0, i, [(0, .nil)]⟩ =
      .ok (.inr ⟨m, i, [(0, .nil)]⟩) := by
    have hlt : (1 : Int) < (f0 :: f1 :: fs).length := by simp only [List.length_cons]; omega
    have hg : goIndex (f0 :: f1 :: fs) 1 = .ok f1 := rfl
    have hgt : m.data.vis.length < min ((f1.size + 7) / 8) m.data.vis.length + m.data.vis.length := by omega
    simp only [step, hfl, hlt, not_true_eq_false, if_false, hg, bind, Except.bind, Slice.len, gt_iff_lt, hgt, or_true,
      if_true, pure, Except.pure]
  have hP : ParsePacket tbl env m (.ok ⟨m, i, [(0, .nil)]⟩) := by
    rw [ParsePacket_iff hf hl]
    exact ⟨0 + 1 + 1, by unfold initSt; rw [run, s1]; simp only []; rw [run, s2]⟩
  exact Except.ok.inj (ParsePacket_det h hP)

end Argo.Nmea2k
