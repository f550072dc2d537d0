import Verif.Float.Model
import Verif.Json.Bits

set_option autoImplicit false

/-!
# The numbers that decoding makes
-/

namespace Argo.Float

open Argo Argo.Json
open Argo.Nmea2k
open Argo.Nmea2k.Table (pgnList)

/-- A value as decoding makes them with the shipped table: numbers of less than 33 bits with a factor of pgn_array.go
(altitudes of 64 bits in micrometres), positions of 4 and 8 bytes, temperatures and pressures of 2 bytes. -/
def OnBus : Val → Prop
  | .f64 n r => ∃ s c, r = .scale s ∧ constant s = some c ∧ (|n| < 2 ^ 32 ∨ s = "1e-6" ∧ |n| ≤ 2 ^ 63)
  | .f32div n d => (d = 10 ^ 7 ∧ |n| ≤ 2 ^ 31) ∨ (d = 100 ∨ d = 1000) ∧ 0 ≤ n ∧ n < 65533
  | .f64div n d => d = 10 ^ 16 ∧ |n| ≤ 2 ^ 63
  | _ => True

/-- What the table has to satisfy. -/
def fieldOk (f : Field) : Bool :=
  match f.res with
  | .scale s => (constants.map Prod.fst).contains s && (f.size ≤ 32 || (s == "1e-6" && f.signed && f.size ≤ 64))
  | .lookup2 => match f.units with | .subLookup _ => true | _ => false
  | _ => true

theorem table_ok : ∀ d ∈ pgnList, ∀ f ∈ d.fieldList, fieldOk f = true := by
  have : pgnList.all (fun d => d.fieldList.all fieldOk) = true := by decide +kernel
  intro d hd f hf
  exact List.all_eq_true.mp (List.all_eq_true.mp this d hd) f hf

theorem constant_some {s : String} (h : (constants.map Prod.fst).contains s = true) : ∃ c, constant s = some c := by
  unfold constant
  rw [List.contains_iff_mem, List.mem_map] at h
  obtain ⟨e, he, rfl⟩ := h
  have : (constants.find? fun e' => e'.1 = e.1) ≠ none := by
    rw [Ne, List.find?_eq_none]
    push Not
    exact ⟨e, he, by simp⟩
  obtain ⟨x, hx⟩ := Option.ne_none_iff_exists'.mp this
  exact ⟨x.2, by rw [hx]; rfl⟩

theorem toSigned_abs (w n : ℕ) (h : 0 < w) : |toSigned w n| ≤ 2 ^ (w - 1) := by
  unfold toSigned
  have h1 := Nat.mod_lt n (show 0 < 2 ^ w by positivity)
  have h2 : (2 : ℕ) ^ w = 2 * 2 ^ (w - 1) := by rw [← pow_succ']; congr 1; omega
  have h3 : (2 : ℤ) ^ w = 2 * 2 ^ (w - 1) := by exact_mod_cast h2
  have h4 : ((n % 2 ^ w : ℕ) : ℤ) < 2 * 2 ^ (w - 1) := by rw [← h3]; exact_mod_cast h1
  simp only
  split
  · rename_i h
    have : ((n % 2 ^ w : ℕ) : ℤ) < 2 ^ (w - 1) := by exact_mod_cast h
    rw [abs_le]; constructor <;> omega
  · rename_i h
    have : (2 : ℤ) ^ (w - 1) ≤ ((n % 2 ^ w : ℕ) : ℤ) := by exact_mod_cast not_lt.mp h
    rw [abs_le]; constructor <;> omega

section
variable {tbl : List Pgn} {env : Nmea2k.Env} {m : RawMessage}

theorem extractNumber_form {f : Field} {a b o w : ℕ} {v : Val} (h : extractNumber m f a b o w = .ok (some v)) :
    ∃ n, v = numberValue f n ∧ (w ≤ 64 → n < 2 ^ w) := by
  unfold extractNumber at h
  simp only [bind, Except.bind, pure, Except.pure] at h
  repeat' split at h
  all_goals first
    | cases h; done
    | skip
  injection h with h; injection h with h
  refine ⟨_, h.symm, fun hw => ?_⟩
  rw [maskOf_eq hw]
  exact lt_of_le_of_lt Nat.and_le_right (Nat.sub_lt (by positivity) (by norm_num))

theorem numberValue_onBus {f : Field} {n w : ℕ} (hok : fieldOk f = true) (hl : f.res.isRaw = true ∨ ∃ s, f.res = .scale s)
    (hw : w ≤ f.size) (hn : w ≤ 64 → n < 2 ^ w) : OnBus (numberValue f n) := by
  unfold numberValue
  rcases hl with hl | ⟨s, hl⟩
  · rw [if_pos hl]; split <;> trivial
  · have hr : f.res.isRaw = false := by rw [hl]; rfl
    rw [hr, if_neg (by simp), hl]
    unfold fieldOk at hok
    rw [hl] at hok
    simp only [Bool.and_eq_true, Bool.or_eq_true, decide_eq_true_eq, beq_iff_eq] at hok
    obtain ⟨hs, hsz⟩ := hok
    obtain ⟨c, hc⟩ := constant_some hs
    split
    · refine ⟨s, c, rfl, hc, ?_⟩
      rcases hsz with hsz | ⟨⟨hsz, _⟩, _⟩
      · left
        have hsw : signedWidth f.size ≤ 32 ∧ 0 < signedWidth f.size := by
          unfold signedWidth; repeat' split
          all_goals omega
        refine lt_of_le_of_lt (toSigned_abs _ _ hsw.2) ?_
        exact pow_lt_pow_right₀ (by norm_num) (by omega)
      · right
        refine ⟨hsz, ?_⟩
        have hsw : signedWidth f.size ≤ 64 ∧ 0 < signedWidth f.size := by
          unfold signedWidth; repeat' split
          all_goals omega
        refine (toSigned_abs _ _ hsw.2).trans ?_
        exact pow_le_pow_right₀ (by norm_num) (by omega)
    · rename_i hsg
      refine ⟨s, c, rfl, hc, Or.inl ?_⟩
      rcases hsz with hsz | ⟨⟨_, hsz⟩, _⟩
      · have h1 : n < 2 ^ 32 := lt_of_lt_of_le (hn (by omega)) (pow_le_pow_right₀ (by norm_num) (by omega))
        rw [abs_of_nonneg (by positivity)]
        exact_mod_cast h1
      · exact absurd hsz hsg

theorem extractNumber_onBus {f : Field} (hok : fieldOk f = true) (hl : f.res.isRaw = true ∨ ∃ s, f.res = .scale s)
    {a b o w : ℕ} (hw : w ≤ f.size) {v : Val} (h : extractNumber m f a b o w = .ok (some v)) : OnBus v := by
  obtain ⟨n, rfl, hn⟩ := extractNumber_form h
  exact numberValue_onBus hok hl hw hn

theorem lookup_onBus {f : Field} (hok : fieldOk f = true) (hl : f.res.isRaw = true ∨ ∃ s, f.res = .scale s)
    {a b o w : ℕ} (hw : w ≤ f.size) {v : Val} (h : extractLookupField env m f a b o w = .ok (some v)) : OnBus v := by
  unfold extractLookupField at h
  simp only [bind, Except.bind, pure, Except.pure] at h
  cases hn : extractNumber m f a b o w with
  | error e => rw [hn] at h; cases h
  | ok r =>
    rw [hn] at h
    cases r with
    | none => cases h
    | some n =>
      have hsm := extractNumber_onBus hok hl hw hn
      simp only at h
      repeat' split at h
      all_goals first
        | (cases h; done)
        | (cases h; first | exact hsm | trivial)

theorem manufacturer_onBus {f : Field} (hok : fieldOk f = true) (hl : f.res.isRaw = true ∨ ∃ s, f.res = .scale s)
    {a b o w : ℕ} (hw : w ≤ f.size) {v : Val} (h : extractManufacturer env m f a b o w = .ok (some v)) : OnBus v := by
  unfold extractManufacturer at h
  simp only [bind, Except.bind, pure, Except.pure] at h
  cases hn : extractNumber m f a b o w with
  | error e => rw [hn] at h; cases h
  | ok r =>
    rw [hn] at h
    cases r with
    | none => cases h
    | some n =>
      have hsm := extractNumber_onBus hok hl hw hn
      simp only at h
      repeat' split at h
      all_goals first
        | (cases h; done)
        | (cases h; first | exact hsm | trivial)

theorem subfield_onBus {f : Field} {name : String} (hu : f.units = .subLookup name) {sn a b o w : ℕ} {v : Val}
    (h : extractLookupSubfield env m f sn a b o w = .ok (some v)) : OnBus v := by
  unfold extractLookupSubfield at h
  simp only [bind, Except.bind, pure, Except.pure, hu] at h
  repeat' split at h
  all_goals first
    | (cases h; done)
    | (injection h with h; injection h with h; subst h; trivial)

theorem lookup2_onBus {d : Pgn} {dm : DataMap} {f : Field} {name : String} (hu : f.units = .subLookup name) {a b c e : ℕ}
    {v : Val} (h : extractLookup2 env m d dm f a b c e = .ok (some v)) : OnBus v := by
  unfold extractLookup2 at h
  simp only [bind, Except.bind, pure, Except.pure] at h
  repeat' split at h
  all_goals first | exact subfield_onBus hu h | cases h

theorem latLon_onBus {a b : ℕ} {v : Val} (h : extractLatLon m a b = .ok (some v)) : OnBus v := by
  unfold extractLatLon at h
  simp only [bind, Except.bind, pure, Except.pure] at h
  repeat' split at h
  all_goals first
    | (cases h; done)
    | skip
  · injection h with h; injection h with h; subst h
    exact Or.inl ⟨rfl, toSigned_abs 32 _ (by norm_num)⟩
  · injection h with h; injection h with h; subst h
    exact ⟨rfl, toSigned_abs 64 _ (by norm_num)⟩

theorem scaled16_onBus {k : ℕ} (hk : k = 100 ∨ k = 1000) {a b : ℕ} {v : Val} (h : extractScaled16 k m a b = .ok (some v)) :
    OnBus v := by
  unfold extractScaled16 at h
  simp only [bind, Except.bind, pure, Except.pure] at h
  repeat' split at h
  all_goals first
    | (cases h; done)
    | skip
  injection h with h; injection h with h; subst h
  exact Or.inr ⟨hk, by positivity, by omega⟩

theorem decodeField_onBus {d : Pgn} {dm : DataMap} {f : Field} (hok : fieldOk f = true) {a b o w : ℕ} (hw : w ≤ f.size)
    {v : Val} (h : decodeField env m d dm f a b o w = .ok (some v)) : OnBus v := by
  unfold decodeField at h
  split at h
  all_goals first
    | exact latLon_onBus h
    | exact scaled16_onBus (Or.inl rfl) h
    | exact scaled16_onBus (Or.inr rfl) h
    | (rename_i hr; exact extractNumber_onBus hok (Or.inl (by rw [hr]; rfl)) hw h)
    | (rename_i hr; exact extractNumber_onBus hok (Or.inr ⟨_, hr⟩) hw h)
    | (rename_i hr; exact lookup_onBus hok (Or.inl (by rw [hr]; rfl)) hw h)
    | (rename_i hr; exact manufacturer_onBus hok (Or.inl (by rw [hr]; rfl)) hw h)
    | (rename_i hr; unfold fieldOk at hok; rw [hr] at hok; simp only at hok; split at hok
       · rename_i hu; exact lookup2_onBus hu h
       · cases hok)
    | skip
  all_goals
    try simp only [extractDate, extractTime, extract6BitASCII, extractStringLZ, extractString, bind, Except.bind,
      pure, Except.pure] at h
    repeat' split at h
  all_goals first
    | (injection h with h; injection h with h; subst h; trivial)
    | cases h

theorem set_onBus {dm : DataMap} (h : ∀ e ∈ dm, OnBus e.2) (k : ℕ) {v : Val} (hv : OnBus v) :
    ∀ e ∈ dm.set k v, OnBus e.2 := by
  unfold DataMap.set
  intro e he
  split at he
  · obtain ⟨x, hx, rfl⟩ := List.mem_map.mp he
    split
    · exact hv
    · exact h x hx
  · rcases List.mem_append.mp he with he | he
    · exact h e he
    · rw [List.mem_singleton.mp he]; exact hv

/-- Whatever is decoded, its numbers are `OnBus`. -/
theorem parsed_onBus (htbl : ∀ d ∈ tbl, ∀ f ∈ d.fieldList, fieldOk f = true) {p : Parsed}
    (h : ParsePacket tbl env m (.ok p)) : ∀ e ∈ p.data, OnBus e.2 := by
  have hne : tbl ≠ [] := by
    rintro rfl
    obtain ⟨n, hn⟩ := h
    simp [parsePacketN, first, firstFrom] at hn
  obtain ⟨i, d, hf, hd, _⟩ := C33_first tbl m.pgn hne
  obtain ⟨jj, q, hl, _, _⟩ := C33_last tbl m.pgn hne
  rw [ParsePacket_iff hf hl] at h
  obtain ⟨n, hn⟩ := h
  obtain ⟨s', hP, hok, _⟩ := run_inv (fun s => s.d ∈ tbl ∧ ∀ e ∈ s.data, OnBus e.2) (fun s s' hs hst => by
    obtain ⟨field, r, i', d', index', _, hfi, _, _, hr, hsel, rfl⟩ := step_inl hst
    have hb := selectVariant_bounds hsel
    refine ⟨?_, ?_⟩
    · by_cases hi : i' = s.i
      · simp only; rw [hb.2.2.1 hi]; exact hs.1
      · exact List.mem_of_getElem? (hb.2.2.2.1 hi).1
    · refine set_onBus hs.2 _ ?_
      cases r with
      | none => trivial
      | some v =>
        have hfm : field ∈ s.d.fieldList := List.mem_of_getElem? (goIndex_ok hfi).2
        exact decodeField_onBus (htbl _ hs.1 _ hfm) (by unfold winBits; omega) hr)
    ⟨List.mem_of_getElem? hd, by intro e he; cases he⟩ hn
  obtain ⟨rfl, _⟩ := step_inr (hok p rfl)
  exact hP.2

end

/-! ## The same of the bits of a message -/

open Nmea2k.Spec in
theorem twos_abs {w x : ℕ} (h : 0 < w) (hx : x < 2 ^ w) : |twos w x| ≤ 2 ^ (w - 1) := by
  have := toSigned_abs w x h
  rwa [toSigned_eq, Nat.mod_eq_of_lt hx] at this

open Nmea2k.Spec in
theorem numeric_onBus {f : Field} (hok : fieldOk f = true) (hl : f.res.isRaw = true ∨ ∃ s, f.res = .scale s) {x : ℕ}
    (hx : x < 2 ^ f.size) : OnBus (numeric f x) := by
  unfold numeric
  have hraw : rawRes f.res = f.res.isRaw := by cases f.res <;> rfl
  rw [hraw]
  rcases hl with hl | ⟨s, hl⟩
  · rw [if_pos hl]; split <;> trivial
  · have hr : f.res.isRaw = false := by rw [hl]; rfl
    rw [hr, if_neg (by simp), hl]
    unfold fieldOk at hok
    rw [hl] at hok
    simp only [Bool.and_eq_true, Bool.or_eq_true, decide_eq_true_eq, beq_iff_eq] at hok
    obtain ⟨hs, hsz⟩ := hok
    obtain ⟨c, hc⟩ := constant_some hs
    refine ⟨s, c, rfl, hc, ?_⟩
    have hle : ∀ {w : ℕ}, f.size ≤ w → x < 2 ^ w := fun h => lt_of_lt_of_le hx (pow_le_pow_right₀ (by norm_num) h)
    have h8 : f.size ≤ 8 → |twos 8 x| < 2 ^ 32 := fun h => lt_of_le_of_lt (twos_abs (by norm_num) (hle h)) (by norm_num)
    have h16 : f.size ≤ 16 → |twos 16 x| < 2 ^ 32 := fun h => lt_of_le_of_lt (twos_abs (by norm_num) (hle h)) (by norm_num)
    have h32 : f.size ≤ 32 → |twos 32 x| < 2 ^ 32 := fun h => lt_of_le_of_lt (twos_abs (by norm_num) (hle h)) (by norm_num)
    unfold fieldInt
    split
    · rcases hsz with hsz | ⟨⟨hsz, _⟩, h64⟩
      · left
        split
        · rename_i h; exact h8 h
        · split
          · rename_i h; exact h16 h
          · exact h32 hsz
      · split
        · rename_i h; exact Or.inl (h8 h)
        · split
          · rename_i h; exact Or.inl (h16 h)
          · split
            · rename_i h; exact Or.inl (h32 h)
            · exact Or.inr ⟨hsz, twos_abs (by norm_num) (hle h64)⟩
    · rename_i hsg
      left
      rcases hsz with hsz | ⟨⟨_, hsz⟩, _⟩
      · have := hle hsz
        rw [abs_of_nonneg (by positivity)]
        exact_mod_cast this
      · exact absurd hsz hsg

open Nmea2k.Spec in
theorem fieldValue_onBus {env : Nmea2k.Env} {data : List Byte} {f : Field} (hok : fieldOk f = true) {pos : ℕ} {v : Val}
    (h : fieldValue env data f pos = some v) : OnBus v := by
  have hx : bitsAt data pos (readable pos f.size) < 2 ^ f.size :=
    lt_of_lt_of_le (bitsAt_lt _ _ _) (pow_le_pow_right₀ (by norm_num) (by unfold readable; omega))
  have hnum : ∀ (hl : f.res.isRaw = true ∨ ∃ s, f.res = .scale s) {w : Val},
      (if byteCount f.size ≤ 8 then some (numeric f (bitsAt data pos (readable pos f.size))) else none) = some w → OnBus w := by
    intro hl w hw
    split at hw
    · injection hw with hw; subst hw; exact numeric_onBus hok hl hx
    · cases hw
  have hu : ∀ {n : ℕ}, byteCount f.size = n → bitsAt data (8 * (pos / 8)) (8 * byteCount f.size) < 2 ^ (8 * n) := by
    rintro n rfl; exact bitsAt_lt _ _ _
  have hpos : ∀ {k : ℕ}, k = 100 ∨ k = 1000 →
      (if byteCount f.size = 2 ∧ bitsAt data (8 * (pos / 8)) (8 * byteCount f.size) < 0xFFFD then
        some (Val.f32div (bitsAt data (8 * (pos / 8)) (8 * byteCount f.size)) k) else none) = some v → OnBus v := by
    intro k hk h
    split at h
    · rename_i hc; injection h with h; subst h
      exact Or.inr ⟨hk, by positivity, by exact_mod_cast hc.2⟩
    · cases h
  have hdeg : (if byteCount f.size = 4 then
      if 0x7FFFFFFE ≤ bitsAt data (8 * (pos / 8)) (8 * byteCount f.size) ∧
          bitsAt data (8 * (pos / 8)) (8 * byteCount f.size) ≤ 0x7FFFFFFF then none
        else some (Val.f32div (twos 32 (bitsAt data (8 * (pos / 8)) (8 * byteCount f.size))) (10 ^ 7))
    else if byteCount f.size = 8 then
      if 0x7FFFFFFFFFFFFFFE ≤ bitsAt data (8 * (pos / 8)) (8 * byteCount f.size) ∧
          bitsAt data (8 * (pos / 8)) (8 * byteCount f.size) ≤ 0x7FFFFFFFFFFFFFFF then none
      else some (Val.f64div (twos 64 (bitsAt data (8 * (pos / 8)) (8 * byteCount f.size))) (10 ^ 16))
    else none) = some v → OnBus v := by
    intro h
    split at h
    · rename_i hc
      split at h
      · cases h
      · injection h with h; subst h
        exact Or.inl ⟨rfl, twos_abs (by norm_num) (hu hc)⟩
    · split at h
      · rename_i hc
        split at h
        · cases h
        · injection h with h; subst h
          exact ⟨rfl, twos_abs (by norm_num) (hu hc)⟩
      · cases h
  unfold fieldValue at h
  simp only at h
  split at h
  all_goals first
    | exact hdeg h
    | exact hpos (Or.inl rfl) h
    | exact hpos (Or.inr rfl) h
    | (rename_i hr; exact hnum (Or.inl (by rw [hr]; rfl)) h)
    | (rename_i hr; exact hnum (Or.inr ⟨_, hr⟩) h)
    | (rename_i hr
       obtain ⟨w, hw, rfl⟩ := Option.map_eq_some_iff.mp h
       have := hnum (Or.inl (by rw [hr]; rfl)) hw
       repeat' split
       all_goals first | exact this | trivial)
    | skip
  all_goals
    repeat' split at h
  all_goals first
    | (cases h; done)
    | (injection h with h; subst h; trivial)

/-- Whatever the bits of a message say, their numbers are `OnBus`. -/
theorem entry_onBus {env : Nmea2k.Env} {v : MsgView} {d : Pgn} (hd : d ∈ pgnList) {k : ℕ} {val : Val}
    (h : Main.EntryOnWire env v d k = some val) : OnBus val := by
  unfold Main.EntryOnWire at h
  split at h
  · obtain ⟨f, hf, h⟩ := Option.bind_eq_some_iff.mp h
    have h : Spec.fieldValue env v.data f (Spec.entryPos d k) = some val := by
      unfold Main.given at h
      split at h
      · cases h
      · exact h
    exact fieldValue_onBus (table_ok d hd f (Main.entryOf_mem hf)) h
  · cases h

end Argo.Float
