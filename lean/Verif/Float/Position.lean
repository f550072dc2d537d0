import Verif.Float.Exists
import Verif.Nmea2k.Decode

set_option autoImplicit false

/-!
# Positions (C122), and numbers that are not exact
-/

namespace Argo.Float

open Argo Argo.Json
open Argo.Nmea2k (Res Val Pgn Parsed)
open Argo.Nmea2k.Table (pgnList)
open Argo.Signalk (Str bs Value)

/-! ## Positions of 8 bytes and of 4 bytes -/

/-- **C122** (8 bytes): what a client reads of a position of 8 bytes is the one on the bus within 2^-50 of it (a tenth of a
micrometre on the ground). -/
theorem C122_wide {enc : Enc} (hf : Formats enc) (n : ℤ) :
    |decimal (enc.float (.f64div n (10 ^ 16))) - n / 10 ^ 16| ≤ 1 / 2 ^ 50 * |(n / 10 ^ 16 : ℚ)| := by
  have h := text_quotient (Or.inl rfl) (by norm_num) double_e16 (by norm_num) (hf.text (.f64div n (10 ^ 16)) _ rfl)
  push_cast at h
  refine h.trans ?_
  simp only [double]
  exact mul_le_mul_of_nonneg_right (by norm_num) (abs_nonneg _)

/-- **C122** (4 bytes): what a client reads of a position of 4 bytes is the one on the bus within 2^-22 of it.  Missing: at the
resolution of the bus, 1e-7 degree (`C122_false`). -/
theorem C122_near_partial {enc : Enc} (hf : Formats enc) (n : ℤ) :
    |decimal (enc.float (.f32div n (10 ^ 7))) - n / 10 ^ 7| ≤ 1 / 2 ^ 22 * |(n / 10 ^ 7 : ℚ)| := by
  have h := text_quotient (Or.inr rfl) (by norm_num) single_e7 (by norm_num) (hf.text (.f32div n (10 ^ 7)) _ rfl)
  push_cast at h
  refine h.trans (le_of_eq ?_)
  simp only [single]
  norm_num

theorem single_steps {a d : ℤ} (h1 : 2 ^ 23 ≤ a) (h2 : a < 2 ^ 24 - 1) (hd : |d| < 64) (h0 : 2 ^ 30 ≤ 128 * a + d) :
    single.round ((128 * a + d : ℤ) : ℚ) = a * 2 ^ (7 : ℤ) := by
  rw [abs_lt] at hd
  have e1 : (2 : ℚ) ^ 30 ≤ ((128 * a + d : ℤ) : ℚ) := by exact_mod_cast h0
  have e2 : ((128 * a + d : ℤ) : ℚ) < 2 ^ 31 := by exact_mod_cast (by omega : 128 * a + d < 2 ^ 31)
  have hp : (0 : ℚ) ≤ ((128 * a + d : ℤ) : ℚ) := le_trans (by norm_num) e1
  refine round_eq single (e := 7) (by simp only [single]; norm_num) ?_ ?_ ?_
  · rw [abs_of_nonneg hp]; simp only [single]; norm_num; push_cast at e1; linarith
  · rw [abs_of_nonneg hp]; simp only [single]; norm_num; push_cast at e2; linarith
  · have e : ((128 * a + d : ℤ) : ℚ) - a * 2 ^ (7 : ℤ) = d := by push_cast; norm_num; ring
    rw [e, abs_lt]
    have h3 : (-64 : ℚ) < d := by exact_mod_cast hd.1
    have h4 : (d : ℚ) < 64 := by exact_mod_cast hd.2
    norm_num
    exact ⟨h3, h4⟩

/-- **C122** is false: beyond 107 degrees the positions on the bus are told apart in steps of 128 only: any two of the numbers
around a multiple of 128 (1e-7 degree each, so up to 1.4 m on the ground) are reported with the same text. -/
theorem C122_false {enc : Enc} (hf : Formats enc) {a d d' : ℤ} (h1 : 2 ^ 23 ≤ a) (h2 : a < 2 ^ 24 - 1) (hd : |d| < 64) (hd' : |d'| < 64)
    (h0 : 2 ^ 30 ≤ 128 * a + d) (h0' : 2 ^ 30 ≤ 128 * a + d') :
    enc.float (.f32div (128 * a + d) (10 ^ 7)) = enc.float (.f32div (128 * a + d') (10 ^ 7)) := by
  refine hf.same _ _ (single.round (single.round ((128 * a + d : ℤ) : ℚ) / single.round ((10 ^ 7 : ℕ) : ℚ))) rfl ?_ rfl
  simp only [number]
  rw [single_steps h1 h2 hd h0, single_steps h1 h2 hd' h0']

theorem same_delta {enc : Enc} {path path' : Str} {k n n' : ℤ} {d : ℕ} (e : enc.float (.f32div n d) = enc.float (.f32div n' d))
    (now pgn : ℕ) (source : Byte) :
    marshal enc now [⟨pgn, source, [(path, Value.plain (.f32div k d)), (path', Value.plain (.f32div n d))]⟩] =
      marshal enc now [⟨pgn, source, [(path, Value.plain (.f32div k d)), (path', Value.plain (.f32div n' d))]⟩] := by
  have hv : valuesOut enc [(path, Value.plain (.f32div k d)), (path', Value.plain (.f32div n d))] =
      valuesOut enc [(path, Value.plain (.f32div k d)), (path', Value.plain (.f32div n' d))] := by
    simp only [valuesOut, valueOut, valOut, e]
  have hu : updateOut enc now ⟨pgn, source, [(path, Value.plain (.f32div k d)), (path', Value.plain (.f32div n d))]⟩ =
      updateOut enc now ⟨pgn, source, [(path, Value.plain (.f32div k d)), (path', Value.plain (.f32div n' d))]⟩ := by
    unfold updateOut
    rw [hv]
  unfold marshal
  rw [List.map_cons, List.map_cons, hu, List.map_nil]

/-- A rapid position update (PGN 129025) at 33.8 degrees south and 151 degrees east, plus `k` steps of 1e-7 degree. -/
def positionAt (k : UInt8) : RawMessage :=
  ⟨2, 129025, 10, 255, 8, ⟨[0, 133, 218, 235, 128 + k, 197, 0, 90], []⟩⟩

theorem positions_check : ∀ k ∈ [(0 : UInt8), 60],
    (match Nmea2k.parsePacketN pgnList (Nmea2k.shippedEnv fun _ => 0) (positionAt k) 20 with
    | some (.ok p) => match Signalk.delta Signalk.refEnv Signalk.shippedReps Signalk.MapTable.maps (Signalk.toMsg p) with
      | .ok (some [u]) => decide (p.header = positionAt k) &&
          decide (u.values = [(bs "navigation.position.latitude", Value.plain (.f32div (-338000640) (10 ^ 7))),
            (bs "navigation.position.longitude", Value.plain (.f32div (1510000000 + k.toNat) (10 ^ 7)))])
      | _ => false
    | _ => false) = true := by decide +kernel

theorem positions_bits : Nmea2k.Spec.bitsAt (positionAt 0).view.data 32 32 = 1510000000 ∧
    Nmea2k.Spec.bitsAt (positionAt 60).view.data 32 32 = 1510000060 := by
  decide +kernel

theorem positions_reported (conv : ℤ → ℕ) {k : UInt8} (hk : k ∈ [(0 : UInt8), 60]) :
    ∃ p values, Iface.Decoded (Nmea2k.shippedEnv conv) (positionAt k).view p ∧ Main.Reports Signalk.refEnv p values ∧
      values = [(bs "navigation.position.latitude", Value.plain (.f32div (-338000640) (10 ^ 7))),
        (bs "navigation.position.longitude", Value.plain (.f32div (1510000000 + k.toNat) (10 ^ 7)))] := by
  have hc := positions_check k hk
  split at hc
  · rename_i p hp
    split at hc
    · rename_i u hu
      rw [Bool.and_eq_true, decide_eq_true_eq, decide_eq_true_eq] at hc
      obtain ⟨c1, c2⟩ := hc
      have hne : pgnList ≠ [] := List.cons_ne_nil _ _
      have hf : Nmea2k.first pgnList (positionAt k).pgn = .ok (105, Nmea2k.Table.p105) :=
        show Nmea2k.first pgnList 129025 = .ok (105, Nmea2k.Table.p105) by decide +kernel
      have hP : Nmea2k.ParsePacket pgnList (Nmea2k.shippedEnv conv) (positionAt k) (.ok p) := by
        refine ⟨20, Eq.trans ?_ hp⟩
        refine Nmea2k.parse_sub (tbl := pgnList) (m := positionAt k) (env := Nmea2k.shippedEnv conv)
          (env' := Nmea2k.shippedEnv fun _ => 0) rfl rfl hne hf (fun t d ht hd => ?_) 20
        exact Nmea2k.table_sub t d (by omega) hd
      obtain ⟨hnd, d, hd⟩ := Main.genuine_facts (p := p) (Or.inl ⟨_, _, hP⟩)
      have hi : Signalk.shippedReps[(Signalk.toMsg p).index]? = some d.repeatingFields := by
        show Signalk.shippedReps[p.index]? = _
        unfold Signalk.shippedReps
        rw [List.getElem?_map, hd]; rfl
      obtain ⟨values, hrep, he⟩ := Signalk.C99_delta hu hnd hi
      have hv : u.values = values := by
        split at he
        · cases he
        · have he := Option.some.inj he
          rw [(List.cons.inj he).1]
      rw [← hv] at hrep
      exact ⟨p, u.values, ⟨by rw [c1], by rw [c1]; exact hP⟩, ⟨d, p.data, hd, List.Perm.refl _, hrep⟩, c2⟩
    · cases hc
  · cases hc

/-- **C122** is false, end to end: two rapid position updates whose longitudes differ by 60 steps of the bus are reported to the
clients with the same bytes. -/
theorem C122_delta_false {enc : Enc} (hf : Formats enc) (conv : ℤ → ℕ) :
    ∃ v v' p p' values values', Iface.Decoded (Nmea2k.shippedEnv conv) v p ∧ Iface.Decoded (Nmea2k.shippedEnv conv) v' p' ∧
      v.pgn = 129025 ∧ v'.pgn = 129025 ∧
      Nmea2k.Spec.bitsAt v.data 32 32 = 1510000000 ∧ Nmea2k.Spec.bitsAt v'.data 32 32 = 1510000060 ∧
      Main.Reports Signalk.refEnv p values ∧ Main.Reports Signalk.refEnv p' values' ∧ values ≠ [] ∧
      ∀ now pgn source, marshal enc now [⟨pgn, source, values⟩] = marshal enc now [⟨pgn, source, values'⟩] := by
  obtain ⟨p, values, h1, h2, h3⟩ := positions_reported conv (k := 0) (by simp)
  obtain ⟨p', values', h1', h2', h3'⟩ := positions_reported conv (k := 60) (by simp)
  refine ⟨(positionAt 0).view, (positionAt 60).view, p, p', values, values', h1, h1', rfl, rfl, positions_bits.1, positions_bits.2,
    h2, h2', by rw [h3]; simp, fun now pgn source => ?_⟩
  have e := C122_false hf (a := 11796875) (d := 0) (d' := 60) (by norm_num) (by norm_num) (by norm_num) (by norm_num)
    (by norm_num) (by norm_num)
  rw [show (128 * 11796875 + 0 : ℤ) = 1510000000 by norm_num, show (128 * 11796875 + 60 : ℤ) = 1510000060 by norm_num] at e
  rw [h3, h3']
  refine same_delta ?_ now pgn source
  rw [show ((0 : UInt8).toNat : ℤ) = 0 from rfl, show ((60 : UInt8).toNat : ℤ) = 60 from rfl, add_zero,
    show (1510000000 + 60 : ℤ) = 1510000060 by norm_num]
  exact e

/-! ## Numbers that are not exact -/

theorem round_tenth : double.round (1 / 10) = 7205759403792794 * 2 ^ (-56 : ℤ) := by
  have := round_eq double (x := 1 / 10) (e := -56) (m := 7205759403792794) (by simp only [double]; norm_num)
    (by rw [abs_of_pos (by norm_num)]; simp only [double]; norm_num) (by rw [abs_of_pos (by norm_num)]; simp only [double]; norm_num)
    (by norm_num [abs_lt])
  exact_mod_cast this

theorem round_seven : double.round 7 = 7 := by
  exact_mod_cast round_int double (n := 7) (by simp only [double]; norm_num) (by simp only [double]; norm_num)

theorem seven_tenths : number (.f64 7 (.scale "0.1")) = some (6305039478318695 * 2 ^ (-53 : ℤ)) := by
  have hc : constant "0.1" = some (1 / 10) := by
    unfold constant constants
    simp [List.find?]
  simp only [number, hc, Option.map_some, Option.some.injEq]
  rw [round_tenth, show ((7 : ℤ) : ℚ) = 7 by norm_num, round_seven]
  have := round_eq double (x := 7 * (7205759403792794 * 2 ^ (-56 : ℤ))) (e := -53) (m := 6305039478318695)
    (by simp only [double]; norm_num)
    (by rw [abs_of_pos (by positivity)]; simp only [double]; norm_num) (by rw [abs_of_pos (by positivity)]; simp only [double]; norm_num)
    (by norm_num [abs_lt])
  exact_mod_cast this

theorem round_seven_tenths : double.round (7 / 10) = 6305039478318694 * 2 ^ (-53 : ℤ) := by
  have := round_eq double (x := 7 / 10) (e := -53) (m := 6305039478318694)
    (by simp only [double]; norm_num)
    (by rw [abs_of_pos (by norm_num)]; simp only [double]; norm_num) (by rw [abs_of_pos (by norm_num)]; simp only [double]; norm_num)
    (by norm_num [abs_lt])
  exact_mod_cast this

/-- **C121**: scaled numbers are not exact.  For 7 tenths on the bus a client does not read 0.7. -/
theorem C121_exact_false {enc : Enc} (hf : Formats enc) : decimal (enc.float (.f64 7 (.scale "0.1"))) ≠ 7 / 10 := by
  intro h
  obtain ⟨_, h1, _⟩ := text_round (hf.text _ _ seven_tenths)
  rw [h, abs_of_pos (by norm_num), show fmtOf (.f64 7 (.scale "0.1")) = double from rfl, round_seven_tenths,
    abs_of_pos (by positivity)] at h1
  norm_num at h1

end Argo.Float
