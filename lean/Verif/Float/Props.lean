import Verif.Float.Accuracy
import Verif.Float.Decode

set_option autoImplicit false

/-!
# Numbers of deltas (C121) and positions (C122)

What a client reads of a number is compared with what was on the bus, not with what the program holds.
-/

namespace Argo.Float

open Argo Argo.Json
open Argo.Nmea2k (Res Val Pgn Field DataMap Parsed)
open Argo.Nmea2k.Table (pgnList)
open Argo.Signalk (Str bs Value)

/-! ## Specification -/

/-- The quantity a value stands for, without rounding: the number on the bus, times the factor of the field or divided by the
unit of the field. -/
def quantity : Val → Option ℚ
  | .u64 n => some n
  | .sint _ n => some n
  | .f64 n (.scale s) => (constant s).map fun c => n * c
  | .f32div n d => some (n / d)
  | .f64div n d => some (n / d)
  | _ => none

/-- How far the text may be off, relative to the quantity: integers, temperatures and pressures are exact, positions of 4 bytes
are not, everything else nearly is. -/
def tolerance : Val → ℚ
  | .u64 _ => 0
  | .sint _ _ => 0
  | .f32div _ d => if d = 10 ^ 7 then 1 / 2 ^ 22 else 0
  | _ => 1 / 2 ^ 50

/-! ## Factors -/

theorem constant_bounds {s : String} {c : ℚ} (h : constant s = some c) : 1 / 2 ^ 30 ≤ c ∧ c ≤ 10 := by
  unfold constant at h
  obtain ⟨e, he, rfl⟩ := Option.map_eq_some_iff.mp h
  have hm := List.mem_of_find?_eq_some he
  simp only [constants, List.mem_cons, List.not_mem_nil, or_false] at hm
  rcases hm with rfl | rfl | rfl | rfl | rfl | rfl | rfl | rfl | rfl | rfl | rfl | rfl | rfl <;>
    simp only [resDegrees, resRotation, radianToDegree, goPi] <;> norm_num

/-! ## Texts -/

/-- Numbers with a factor. -/
theorem text_scaled {n : ℤ} {c : ℚ} (hc : 1 / 2 ^ 40 ≤ |c|) {t : Str}
    (h : FloatText double (double.round (double.round n * double.round c)) t) : |decimal t - n * c| ≤ 1 / 2 ^ 50 * |n * c| := by
  by_cases hn : n = 0
  · subst hn
    rw [show double.round (double.round ((0 : ℤ) : ℚ) * double.round c) = 0 by simp [round_zero]] at h
    rw [decimal_zero h]; simp
  · obtain ⟨h1, h2⟩ := near_product hn hc
    have h3 := near_decimal h (tiny_le (by simp only [double]; norm_num) (le_trans (by norm_num) h2)) (by simp only [double]; norm_num)
    exact (h3.trans h1 (by simp only [double]; norm_num)).mono (by simp only [double]; norm_num)

theorem text_quotient {F : Fmt} (hF : F = double ∨ F = single) {n : ℤ} {d : ℕ} (hd0 : 0 < d)
    (hd : F.round d = d) (hd2 : (d : ℚ) ≤ 2 ^ 60) {t : Str} (h : FloatText F (F.round (F.round n / F.round d)) t) :
    |decimal t - n / d| ≤ 4 / 2 ^ F.p * |(n / d : ℚ)| := by
  by_cases hn : n = 0
  · subst hn
    rw [show F.round (F.round ((0 : ℤ) : ℚ) / F.round d) = 0 by simp [round_zero]] at h
    rw [decimal_zero h]; simp
  · obtain ⟨h1, h2⟩ := near_quotient hF hn hd0 hd hd2
    have hp : 2 ≤ F.p := by rcases hF with rfl | rfl <;> simp only [double, single] <;> norm_num
    have he : F.emin + F.p ≤ -100 := by rcases hF with rfl | rfl <;> simp only [double, single] <;> norm_num
    have h3 := near_decimal h (tiny_le he (le_trans (by norm_num) h2)) hp
    refine (h3.trans h1 ?_).mono ?_
    · rcases hF with rfl | rfl <;> simp only [double, single] <;> norm_num
    · rcases hF with rfl | rfl <;> simp only [double, single] <;> norm_num

theorem single_nat {n : ℕ} (h : n < 2 ^ 24) : single.round n = n := by
  have := round_int single (by simp only [single]; norm_num) (n := n) (by simp only [single]; exact_mod_cast h)
  exact_mod_cast this

theorem single_e7 : single.round ((10 ^ 7 : ℕ) : ℚ) = (10 ^ 7 : ℕ) := single_nat (by norm_num)

theorem double_e16 : double.round ((10 ^ 16 : ℕ) : ℚ) = (10 ^ 16 : ℕ) :=
  round_rep double ⟨5 ^ 16, 16, by simp only [double]; norm_num, by simp only [double]; norm_num, by norm_num⟩

/-- Decimal numbers with at most five digits that are rounded to the same `float32` are the same. -/
theorem five_digits {m m' : ℕ} {k k' : ℤ} {x : ℚ} (hm : m < 10 ^ 5) (hm' : m' < 10 ^ 5) (h : single.round (m * 10 ^ k) = x)
    (h' : single.round (m' * 10 ^ k') = x) (hx : (2 : ℚ) ^ (-100 : ℤ) ≤ |x|) : (m * 10 ^ k : ℚ) = m' * 10 ^ k' := by
  wlog hk : k ≤ k' generalizing m m' k k'
  · exact (this hm' hm h' h (by omega)).symm
  obtain ⟨j, hj⟩ := Int.eq_ofNat_of_zero_le (show 0 ≤ k' - k by omega)
  have hk' : k' = k + j := by omega
  subst hk'
  by_contra hne
  have hT : (0 : ℚ) < 10 ^ k := by positivity
  have e : (m' * 10 ^ (k + (j : ℤ)) : ℚ) = ((m' * 10 ^ j : ℕ) : ℚ) * 10 ^ k := by
    rw [zpow_add₀ (by norm_num)]; push_cast; rw [zpow_natCast]; ring
  have hxs : (2 : ℚ) ^ (single.emin + (single.p : ℤ)) ≤ |x| :=
    le_trans (zpow_le_zpow_right₀ (by norm_num) (by simp only [single]; norm_num)) hx
  have n1 := near_text single h hxs (by simp only [single]; norm_num)
  have n2 := near_text single h' hxs (by simp only [single]; norm_num)
  rw [e] at hne n2
  have hne' : ((m : ℤ) - (m' * 10 ^ j : ℕ)) ≠ 0 := by
    intro h0
    apply hne
    have : (m : ℤ) = (m' * 10 ^ j : ℕ) := by omega
    have : m = m' * 10 ^ j := by exact_mod_cast this
    rw [this]
  have gap : (10 : ℚ) ^ k ≤ |(m : ℚ) * 10 ^ k - ((m' * 10 ^ j : ℕ) : ℚ) * 10 ^ k| := by
    rw [← sub_mul, abs_mul, abs_of_pos hT]
    have := int_one_le hne'
    push_cast at this ⊢
    nlinarith
  have hmq : (m : ℚ) < 10 ^ 5 := by exact_mod_cast hm
  unfold Near at n1 n2
  have hmm : (0 : ℚ) ≤ m := by positivity
  have a1 := abs_sub_abs_le_abs_sub x ((m : ℚ) * 10 ^ k)
  rw [abs_sub_comm x, abs_of_nonneg (by positivity : (0 : ℚ) ≤ m * 10 ^ k)] at a1
  have a2 := abs_sub_le ((m : ℚ) * 10 ^ k) x (((m' * 10 ^ j : ℕ) : ℚ) * 10 ^ k)
  rw [abs_sub_comm x] at a2
  have hu : (1 : ℚ) / (2 ^ single.p - 1) ≤ 1 / 2 ^ 23 := by simp only [single]; norm_num
  have hxx := abs_nonneg x
  have b1 : |(m : ℚ) * 10 ^ k - x| ≤ 1 / 2 ^ 23 * |x| := n1.trans (by gcongr)
  have b2 : |((m' * 10 ^ j : ℕ) : ℚ) * 10 ^ k - x| ≤ 1 / 2 ^ 23 * |x| := n2.trans (by gcongr)
  have b3 : (m : ℚ) * 10 ^ k ≤ 10 ^ 5 * 10 ^ k := by gcongr
  linarith

/-- Temperatures and pressures. -/
theorem text_exact {n : ℤ} (h0 : 0 ≤ n) (hn : n < 65533) {d : ℕ} (hd : d = 100 ∨ d = 1000) {t : Str}
    (h : FloatText single (single.round (single.round n / single.round d)) t) : decimal t = n / d := by
  by_cases hz : n = 0
  · subst hz
    rw [show single.round (single.round ((0 : ℤ) : ℚ) / single.round d) = 0 by simp [round_zero]] at h
    rw [decimal_zero h]; simp
  have hd' : single.round d = d := single_nat (by rcases hd with rfl | rfl <;> norm_num)
  have hd1 : (d : ℚ) ≤ 1000 := by rcases hd with rfl | rfl <;> norm_num
  have hd0 : 0 < d := by rcases hd with rfl | rfl <;> norm_num
  have hnr : single.round n = n := round_int single (by simp only [single]; norm_num) (by
    rw [abs_of_nonneg h0]; simp only [single]; omega)
  obtain ⟨near, low⟩ := near_quotient (Or.inr rfl) hz hd0 hd' (hd1.trans (by norm_num))
  have hpos : 0 ≤ single.round (single.round n / single.round d) := by
    have hq : (0 : ℚ) < n / d := by
      have : (0 : ℚ) < n := by exact_mod_cast (by omega : 0 < n)
      have : (0 : ℚ) < d := by exact_mod_cast hd0
      positivity
    unfold Near at near
    rw [abs_of_pos hq] at near
    have := (abs_le.mp near).1
    have hu : (2 : ℚ) / 2 ^ single.p + 1 / 2 ^ (2 * single.p) ≤ 1 / 2 := by simp only [single]; norm_num
    nlinarith
  obtain ⟨_, _, _, _, m, k, hs, hdec⟩ := text_round h
  rw [hdec, if_neg (not_lt.mpr hpos), one_mul]
  obtain ⟨N, hN⟩ := Int.eq_ofNat_of_zero_le h0
  subst hN
  obtain ⟨j, hj⟩ : ∃ j : ℤ, ((N : ℤ) : ℚ) / d = N * 10 ^ j := by
    rcases hd with rfl | rfl
    · exact ⟨-2, by push_cast; rw [div_eq_mul_inv]; norm_num⟩
    · exact ⟨-3, by push_cast; rw [div_eq_mul_inv]; norm_num⟩
  have hxx : single.round (N * 10 ^ j) = |single.round (single.round ((N : ℤ) : ℚ) / single.round d)| := by
    rw [abs_of_nonneg hpos, hnr, hd', hj]
  have hm := hs.fewest N j 5 hxx (by omega)
  have := five_digits hm (by omega : N < 10 ^ 5) hs.exact hxx (by
    rw [abs_abs]; exact tiny_le (by norm_num) (le_trans (by norm_num) low))
  rw [this, hj]

/-- **C121** (one value): the text of every number says what was on the bus, within the tolerance. -/
theorem C121_value {enc : Enc} (hf : Formats enc) {v : Val} {y : ℚ} {j : Json} (hv : OnBus v) (hq : quantity v = some y)
    (h : Shown enc (.plain v) j) : ∃ t, j = .num t ∧ |decimal t - y| ≤ tolerance v * |y| := by
  have hnat : ∀ n : ℕ, decimal (bs (toString n)) = n := by
    intro n
    have := decimal_text false (i := bs (toString n)) (f := []) none (nat_digits n)
      (by obtain ⟨b, l, e, _⟩ := dec_shape n; rw [e]; simp) (by simp)
    rw [List.append_nil, digitsVal_nat] at this
    simpa [text, expo] using this
  cases h with
  | nothing => cases hq
  | nat n =>
    simp only [quantity, Option.some.injEq] at hq
    subst hq
    exact ⟨_, rfl, by rw [hnat]; simp [tolerance]⟩
  | int w n =>
    simp only [quantity, Option.some.injEq] at hq
    subst hq
    refine ⟨_, rfl, ?_⟩
    have : decimal (bs (toString n)) = n := by
      cases n with
      | ofNat n => exact_mod_cast hnat n
      | negSucc n =>
        have e : toString (Int.negSucc n) = "-" ++ toString (n + 1) := rfl
        rw [e, bs_append]
        have h1 : bs "-" = [45] := by decide +kernel
        have := decimal_text true (i := bs (toString (n + 1))) (f := []) none (nat_digits _)
          (by obtain ⟨b, l, e, _⟩ := dec_shape (n + 1); rw [e]; simp) (by simp)
        rw [h1]
        simp only [text, if_true, expo, digitsVal_nat, List.append_nil, List.length_nil] at this
        rw [this, Int.cast_negSucc]
        simp
    rw [this]; simp [tolerance]
  | float n r =>
    obtain ⟨s, c, rfl, hc, _⟩ := hv
    simp only [quantity, hc, Option.map_some, Option.some.injEq] at hq
    subst hq
    have hx : number (.f64 n (.scale s)) = some (double.round (double.round n * double.round c)) := by
      simp [number, hc]
    have hb := (constant_bounds hc).1
    exact ⟨_, rfl, text_scaled (by rw [abs_of_nonneg (le_trans (by norm_num) hb)]; exact le_trans (by norm_num) hb) (hf.text _ _ hx)⟩
  | float32 n d =>
    simp only [quantity, Option.some.injEq] at hq
    subst hq
    have ht := hf.text (.f32div n d) _ rfl
    refine ⟨_, rfl, ?_⟩
    rcases hv with ⟨rfl, _⟩ | ⟨hd, h0, hn⟩
    · have := text_quotient (Or.inr rfl) (by norm_num) single_e7 (by norm_num) ht
      simp only [tolerance, if_true]
      refine this.trans (le_of_eq ?_)
      simp only [single]
      norm_num
    · rw [text_exact h0 hn hd ht, sub_self, abs_zero]
      have : d ≠ 10 ^ 7 := by rcases hd with rfl | rfl <;> norm_num
      simp only [tolerance, if_neg this, zero_mul, le_refl]
  | quotient n d =>
    simp only [quantity, Option.some.injEq] at hq
    subst hq
    obtain ⟨rfl, _⟩ := hv
    have := text_quotient (Or.inl rfl) (by norm_num) double_e16 (by norm_num) (hf.text (.f64div n (10 ^ 16)) _ rfl)
    refine ⟨_, rfl, this.trans ?_⟩
    simp only [tolerance, double]
    exact mul_le_mul_of_nonneg_right (by norm_num) (abs_nonneg _)
  | date => cases hq
  | time => cases hq
  | name => cases hq
  | chars => cases hq
  | bytes => cases hq

/-! ## Numbers that are reported -/

/-- **C121** (decoding): whatever message is decoded, and whatever its factors, the number a client reads of each of its values is
what was on the bus, within the tolerance. -/
theorem C121_decoded {enc : Enc} (hf : Formats enc) {env : Nmea2k.Env} {m : RawMessage} {p : Parsed}
    (hp : Nmea2k.ParsePacket pgnList env m (.ok p)) {e : ℕ × Val} (he : e ∈ p.data) {y : ℚ} (hq : quantity e.2 = some y) {j : Json}
    (h : Shown enc (.plain e.2) j) : ∃ t, j = .num t ∧ |decimal t - y| ≤ tolerance e.2 * |y| :=
  C121_value hf (parsed_onBus table_ok hp e he) hq h

/-- **C121** (nothing is lost in digits): from the number a client reads, the number that was on the bus can be recovered by
dividing by the factor of the field and rounding, for every field of up to 48 bits. -/
theorem C121_recover {enc : Enc} (hf : Formats enc) {n : ℤ} {s : String} {c : ℚ} (hc : constant s = some c) (hn : |n| ≤ 2 ^ 48)
    {n' : ℤ} : |decimal (enc.float (.f64 n (.scale s))) / c - n'| < 1 / 2 ↔ n' = n := by
  have hb := (constant_bounds hc).1
  have hc0 : 0 < c := lt_of_lt_of_le (by norm_num) hb
  have hx : number (.f64 n (.scale s)) = some (double.round (double.round n * double.round c)) := by simp [number, hc]
  have h := text_scaled (n := n) (by rw [abs_of_pos hc0]; exact le_trans (by norm_num) hb) (hf.text _ _ hx)
  rw [abs_mul, abs_of_pos hc0] at h
  have hnq : |(n : ℚ)| ≤ 2 ^ 48 := by exact_mod_cast hn
  have h2 : |decimal (enc.float (.f64 n (.scale s))) / c - n| < 1 / 2 := by
    have e : decimal (enc.float (.f64 n (.scale s))) / c - n = (decimal (enc.float (.f64 n (.scale s))) - n * c) / c := by
      field_simp
    rw [e, abs_div, abs_of_pos hc0, div_lt_iff₀ hc0]
    nlinarith
  constructor
  · intro h3
    have h4 : |((n' - n : ℤ) : ℚ)| < 1 := by
      push_cast
      have := abs_sub_le (n' : ℚ) (decimal (enc.float (.f64 n (.scale s))) / c) n
      rw [abs_sub_comm (n' : ℚ) (decimal _ / c)] at this
      linarith
    have : |n' - n| < 1 := by exact_mod_cast h4
    have := Int.abs_lt_one_iff.mp this
    omega
  · rintro rfl; exact h2

/-- The values in a delta. -/
def ValuesIn (j : Json) (vs : List Json) : Prop :=
  ∃ context source timestamp, j = .obj [context, ("updates".toList, .arr [.obj [source, timestamp, ("values".toList, .arr vs)]])]

/-- The delta has, in this order, a path and a value for each of `values`, and the values that are numbers on the bus are numbers in
the delta, within the tolerance. -/
def DeltaNumbers (values : List (Str × Value Val)) (j : Json) : Prop :=
  ∃ vs, ValuesIn j vs ∧ List.Forall₂ (fun pv o => ∀ v y, pv.2 = .plain v → quantity v = some y →
    ∃ t, o = Json.obj [("path".toList, .str (chars pv.1)), ("value".toList, .num t)] ∧ |decimal t - y| ≤ tolerance v * |y|) values vs

theorem delta_numbers {enc : Enc} (hf : Formats enc) {now pgn : ℕ} {source : Byte} {values : List (Str × Value Val)} {j : Json}
    (hb : ∀ path v, (path, Value.plain v) ∈ values → OnBus v) (h : DeltaJson enc now pgn source values j) :
    DeltaNumbers values j := by
  obtain ⟨ts, vs, _, hfa, rfl⟩ := h
  refine ⟨vs, ⟨_, _, _, rfl⟩, ?_⟩
  clear * - hf hb hfa
  induction hfa with
  | nil => exact .nil
  | @cons pv o l l' h1 _ ih =>
    refine .cons ?_ (ih fun path v hm => hb path v (List.mem_cons_of_mem _ hm))
    intro v y hv hq
    obtain ⟨x, hx, rfl⟩ := h1
    rw [hv] at hx
    obtain ⟨t, rfl, ht⟩ := C121_value hf (hb pv.1 v (by rw [← hv]; exact List.mem_cons_self)) hq hx
    exact ⟨t, rfl, ht⟩

theorem reports_onBus {denv : Signalk.Env Val} {env : Nmea2k.Env} {raw : RawMessage}
    {p : Parsed} (hp : Nmea2k.ParsePacket pgnList env raw (.ok p)) {values : List (Str × Value Val)}
    (hr : Main.Reports denv p values) : ∀ path v, (path, Value.plain v) ∈ values → OnBus v := by
  intro path v hm
  obtain ⟨d, order, _, hperm, hpl, _⟩ := hr
  have := Signalk.mem_plainPart.mpr hm
  rw [hpl, List.mem_filterMap] at this
  obtain ⟨⟨k, o⟩, hmem, hcon⟩ := this
  unfold Signalk.Spec.contribution at hcon
  obtain ⟨pg, _, hcon⟩ := Option.bind_eq_some_iff.mp hcon
  obtain ⟨val', hval, hcon⟩ := Option.bind_eq_some_iff.mp hcon
  simp only at hval
  split at hcon
  · cases hcon
  · injection hcon with hcon
    injection hcon with _ c2
    subst c2
    obtain ⟨e, he, hek⟩ := List.mem_map.mp hmem
    injection hek with _ hek
    have hs := parsed_onBus table_ok hp e (hperm.subset he)
    rw [hval] at hek
    split at hek
    · cases hek
    · injection hek with hek; rw [← hek]; exact hs

section
open Argo.Main
variable {sort : List String → List String} {opts : Opts} {out : Outputs} {verbose : Bool} {denv : Signalk.Env Val}
  {enc : Enc} {conv : ℤ → ℕ}

/-- **C121** (clients): whatever the interfaces receive, everything a client receives, at any moment of any schedule, is a JSON text
of a delta; if its message was decoded from the bus, then its values are exactly those of the bits (`ValuesOfBits`), and each that
is a number is shown as a number that differs from the one on the bus by at most the tolerance. -/
theorem C121_client (hs : Sane enc) (hf : Formats enc) {parse : RawMessage → GoM Parsed}
    (hparse : ∀ m, Nmea2k.ParsePacket pgnList (Nmea2k.shippedEnv conv) m (parse m)) (hprints : Signalk.Prints denv)
    (mem : ℕ → ℕ → List Byte) (g : ℕ → ℕ) (fp : List ℕ) (bus : List (ℕ × Ev)) (inputs : ℕ → Input)
    {es : List (SysEvent Body (List Byte))} (ho : Ordinary es)
    (hfeed : Feeds es (fun i => (inputs i).acts parse mem g fp bus i)) {s : Sys Body (List Byte)}
    (h : sysExec (shippedProgram sort opts out verbose denv (marshal enc)) Sys.init es = some (.ok s))
    {c : Hub.Id} (hc : Hub.Spec.registered c (wsTrace es)) {b : List Byte} (hb : b ∈ s.ws.got c) :
    ∃ i p values now j, (inputs i).Made (Nmea2k.shippedEnv conv) fp bus i p ∧ values ≠ [] ∧
      DeltaJson enc now p.header.pgn p.header.source values j ∧ (∀ j', Reads b j' ↔ j' = j) ∧
      ∀ v, Iface.Decoded (Nmea2k.shippedEnv conv) v p →
        DeltaNumbers values j ∧ (Ample v → ValuesOfBits denv (Nmea2k.shippedEnv conv) v values) := by
  obtain ⟨i, p, values, now, j, h1, h2, h3, h4, h5⟩ := C104_client hs hparse mem g fp bus inputs ho hfeed h hc hb
  exact ⟨i, p, values, now, j, h1, h3, h4, h5, fun v hdec => ⟨delta_numbers hf (reports_onBus hdec.2 h2) h4,
    fun hample => C118_field hprints hdec hample h2⟩⟩

/-- **C121** (nothing is lost): when the interfaces have handed over all they make of what they received, and a client connected
since the first delta has kept up, then for every message decoded from the bus it has received a JSON text with exactly the values
of its bits, and the numbers among them within the tolerance; unless there are none. -/
theorem C121_complete (hs : Sane enc) (hl : Local enc) (hf : Formats enc) {parse : RawMessage → GoM Parsed}
    (hparse : ∀ m, Nmea2k.ParsePacket pgnList (Nmea2k.shippedEnv conv) m (parse m)) (hprints : Signalk.Prints denv)
    (mem : ℕ → ℕ → List Byte) (g : ℕ → ℕ) (fp : List ℕ) (bus : List (ℕ × Ev)) (inputs : ℕ → Input)
    {es : List (SysEvent Body (List Byte))} (hord : Ordinary es)
    (hall : ∀ i, (readBy i es).map parsedOf = Iface.handed ((inputs i).acts parse mem g fp bus i))
    (hperm : ∀ i, ∀ m ∈ readBy i es, m.body.order.Perm m.body.data) {s : Sys Body (List Byte)}
    (h : sysExec (shippedProgram sort opts out verbose denv (marshal enc)) Sys.init es = some (.ok s))
    (hp : ∀ i, s.pending i = none) (ht : s.todo = []) (hpc : s.ws.pc = .idle) (hw : out.websockets = true)
    {c : Hub.Id} (hc : Hub.Spec.registered c (wsTrace es)) (h0 : before c (wsTrace es) = 0)
    (hin : c ∈ s.ws.conns) (hbuf : (s.ws.chan c).buf = []) {n : ℕ} {p : Parsed} {v : MsgView}
    (hpm : p ∈ Iface.handed ((inputs n).acts parse mem g fp bus n)) (hdec : Iface.Decoded (Nmea2k.shippedEnv conv) v p)
    (hample : Ample v) :
    ∃ values, ValuesOfBits denv (Nmea2k.shippedEnv conv) v values ∧
      (values ≠ [] → ∃ now, ∃ b ∈ s.ws.got c, ∃ j, DeltaJson enc now v.pgn v.source values j ∧ DeltaNumbers values j ∧
        ∀ j', Reads b j' ↔ j' = j) := by
  obtain ⟨values, h1, h2⟩ := C118_complete hs hl hparse hprints mem g fp bus inputs hord hall hperm h hp ht hpc hw hc h0 hin
    hbuf hpm hdec hample
  refine ⟨values, h1, fun hne => ?_⟩
  obtain ⟨now, b, hb, j, h3, h4⟩ := h2 hne
  refine ⟨now, b, hb, j, h3, delta_numbers hf (fun path val hm => ?_) h3, h4⟩
  obtain ⟨i, d, k, hd, hk, _⟩ := (h1 path val).mp hm
  exact entry_onBus (List.mem_of_getElem? hd.1) hk

end

end Argo.Float
