import Verif.Nmea2k.Lemmas

set_option autoImplicit false

/-!
# Field extraction: C35, C36, C37, C39-C44

Each theorem is about the model of one extraction function, for every message, window and field.
-/

namespace Argo.Nmea2k

open Argo Argo.Nmea2k.Spec

theorem toSigned_twos {w u : Nat} (h : u < 2 ^ w) : toSigned w u = twos w u := by
  rw [toSigned_eq, Nat.mod_eq_of_lt h]

/-- C35: on a window of at most 8 bytes inside the message, an unsigned field yields exactly the
`width` bits starting at bit `offset` of byte `start`, cut to the bits that lie in the window;
on a larger window it reports an error. -/
theorem C35_number (m : RawMessage) (f : Field) {start stop offset width : Nat}
    (h1 : start ≤ stop) (h2 : stop ≤ m.data.vis.length) (hw : width ≤ 64)
    (hu : f.signed = false) :
    extractNumber m f start stop offset width =
      .ok (if 8 < stop - start then none
        else
          let x := bitsAt m.data.vis (8 * start + offset)
            (if offset + width ≤ 8 * (stop - start) then width else 8 * (stop - start) - offset)
          some (if rawRes f.res then .u64 x else .f64 x f.res)) := by
  rw [extractNumber_eq m f h1 h2 (fun _ => hw)]
  by_cases h8 : 8 < stop - start
  · rw [if_pos h8, if_pos h8]
  · rw [if_neg h8, if_neg h8]
    have e : min width (8 * (stop - start) - offset) =
        if offset + width ≤ 8 * (stop - start) then width else 8 * (stop - start) - offset := by
      split <;> omega
    have hr : f.res.isRaw = rawRes f.res := by cases f.res <;> rfl
    simp only [e, numberValue, hu, hr]
    simp

example : ∃ (m : RawMessage) (f : Field), f.signed = false ∧
    extractNumber m f 0 2 3 11 = .ok (some (.u64 0x7ff)) :=
  ⟨⟨0, 0, 0, 0, 0, ⟨[0xf8, 0x3f], []⟩⟩, ⟨"", 11, .manufacturer, false, .nil, "", "", 0⟩, rfl,
    by decide⟩

/-- C36 is false in the strongest sense: whatever the bits are, `extractNumber` on a window of at
most 8 bytes inside the message never reports "not present"; in particular not for a field of
all ones. -/
theorem C36_false (m : RawMessage) (f : Field) {start stop offset width : Nat}
    (h1 : start ≤ stop) (h2 : stop ≤ m.data.vis.length) (hw : width ≤ 64)
    (h8 : stop - start ≤ 8) :
    ∃ v, extractNumber m f start stop offset width = .ok (some v) ∧ v ≠ .nil := by
  rw [extractNumber_eq m f h1 h2 (fun _ => hw), if_neg (by omega)]
  refine ⟨_, rfl, ?_⟩
  unfold numberValue
  split <;> split <;> simp

/-- C36 witness: a one-byte field holding 0xFF (not available) is decoded as 255. -/
theorem C36_false_witness :
    extractNumber ⟨0, 0, 0, 0, 1, ⟨[0xff], []⟩⟩ ⟨"SID", 8, .one, false, .nil, "", "", 0⟩ 0 1 0 8 =
      .ok (some (.u64 255)) := by decide

/-- The integer carried by a numeric value. -/
def Val.int? : Val → Option Int
  | .u64 n => some n
  | .sint _ n => some n
  | .f64 n _ => some n
  | _ => none

/-- C37 (part): for signed fields of 8, 16, 32 or 64 bits whose bits all lie in the window the
result carries the two's-complement value of the bits. -/
theorem C37_partial (m : RawMessage) (f : Field) {start stop offset : Nat}
    (h1 : start ≤ stop) (h2 : stop ≤ m.data.vis.length) (h8 : stop - start ≤ 8)
    (hs : f.signed = true) (hsz : f.size = 8 ∨ f.size = 16 ∨ f.size = 32 ∨ f.size = 64)
    (hfit : offset + f.size ≤ 8 * (stop - start)) :
    ∃ v, extractNumber m f start stop offset f.size = .ok (some v) ∧
      v.int? = some (twos f.size (bitsAt m.data.vis (8 * start + offset) f.size)) := by
  rw [extractNumber_eq m f h1 h2 (fun _ => by omega), if_neg (by omega)]
  refine ⟨_, rfl, ?_⟩
  have e : min f.size (8 * (stop - start) - offset) = f.size := by omega
  have hx := bitsAt_lt m.data.vis (8 * start + offset) f.size
  rw [e]
  generalize bitsAt m.data.vis (8 * start + offset) f.size = x at hx
  have hw : signedWidth f.size = f.size := by
    unfold signedWidth; rcases hsz with h | h | h | h <;> rw [h] <;> decide
  unfold numberValue
  rw [hw, hs, toSigned_twos hx]
  split <;> rfl

example : ∃ (m : RawMessage) (f : Field), f.signed = true ∧ f.size = 16 ∧
    extractNumber m f 0 2 0 16 = .ok (some (.f64 (-2) (.scale "0.0001"))) :=
  ⟨⟨0, 0, 0, 0, 0, ⟨[0xfe, 0xff], []⟩⟩, ⟨"", 16, .scale "0.0001", true, .nil, "", "", 0⟩, rfl, rfl,
    by decide⟩

/-- C37 is false for every other width below 64: the result is never negative, whatever the sign
bit of the field is. -/
theorem C37_false (m : RawMessage) (f : Field) {start stop offset : Nat}
    (h1 : start ≤ stop) (h2 : stop ≤ m.data.vis.length) (h8 : stop - start ≤ 8)
    (hsz : f.size < 64 ∧ f.size ≠ 8 ∧ f.size ≠ 16 ∧ f.size ≠ 32) :
    ∃ v n, extractNumber m f start stop offset f.size = .ok (some v) ∧ v.int? = some n ∧ 0 ≤ n := by
  rw [extractNumber_eq m f h1 h2 (fun _ => by omega), if_neg (by omega)]
  have hx := bitsAt_lt m.data.vis (8 * start + offset) (min f.size (8 * (stop - start) - offset))
  generalize bitsAt m.data.vis (8 * start + offset) (min f.size (8 * (stop - start) - offset)) = x
    at hx
  have hlt : f.size < signedWidth f.size := by unfold signedWidth; split <;> [omega; split] <;>
    [omega; split] <;> omega
  have hx1 : x < 2 ^ (signedWidth f.size - 1) := Nat.lt_of_lt_of_le hx
    (Nat.pow_le_pow_right (by omega) (by omega))
  have hx2 : x < 2 ^ signedWidth f.size := Nat.lt_of_lt_of_le hx
    (Nat.pow_le_pow_right (by omega) (by omega))
  have ht : toSigned (signedWidth f.size) x = (x : Int) := by
    rw [toSigned_twos hx2, twos, if_pos hx1]
  refine ⟨_, (x : Int), rfl, ?_, by omega⟩
  unfold numberValue
  rw [ht]
  split <;> split <;> rfl

/-- C37 witness: a signed 24-bit field of all ones (-1) decodes to 16777215. -/
theorem C37_false_witness :
    extractNumber ⟨0, 0, 0, 0, 3, ⟨[0xff, 0xff, 0xff], []⟩⟩
      ⟨"Altitude", 24, .one, true, .nil, "", "", 0⟩ 0 3 0 24 = .ok (some (.sint 32 16777215)) := by
  decide

/-- C39: for a window inside the message, `u` its little-endian number: 4 bytes give
`twos u / 1e7` and 8 bytes `twos u / 1e16`, except that the two largest values are "not present";
any other width is an error. -/
theorem C39_latlon (m : RawMessage) {start stop : Nat} (h1 : start ≤ stop)
    (h2 : stop ≤ m.data.vis.length) :
    let u := bitsAt m.data.vis (8 * start) (8 * (stop - start))
    extractLatLon m start stop = .ok (
      if stop - start = 4 then
        if u = 0x7FFFFFFE ∨ u = 0x7FFFFFFF then none else some (.f32div (twos 32 u) (10 ^ 7))
      else if stop - start = 8 then
        if u = 0x7FFFFFFFFFFFFFFE ∨ u = 0x7FFFFFFFFFFFFFFF then none
        else some (.f64div (twos 64 u) (10 ^ 16))
      else none) := by
  obtain ⟨r, hr, hv, hl⟩ := sub_len h1 h2
  have hn : leNat r.vis = bitsAt m.data.vis (8 * start) (8 * (stop - start)) := by
    rw [hv, leNat_window]
  have hlt := bitsAt_lt m.data.vis (8 * start) (8 * (stop - start))
  intro u
  show extractLatLon m start stop = _
  unfold extractLatLon
  simp only [hr, bind, Except.bind, hl, hn]
  change u < _ at hlt
  change (if _ then (if toSigned 32 u > _ then _ else _) else if _ then
    (if toSigned 64 u > _ then _ else _) else _) = _
  by_cases h4 : stop - start = 4
  · rw [if_pos h4, if_pos h4]
    rw [h4] at hlt
    rw [toSigned_twos (by simpa using hlt)]
    have hlt' : u < 4294967296 := by simpa using hlt
    by_cases hu : u = 0x7FFFFFFE ∨ u = 0x7FFFFFFF
    · rw [if_pos hu, if_pos]; · rfl
      unfold twos; rw [if_pos (by omega)]; omega
    · rw [if_neg hu, if_neg]; · rfl
      unfold twos; split <;> omega
  · rw [if_neg h4, if_neg h4]
    by_cases h8 : stop - start = 8
    · rw [if_pos h8, if_pos h8]
      rw [h8] at hlt
      rw [toSigned_twos (by simpa using hlt)]
      have hlt' : u < 18446744073709551616 := by simpa using hlt
      by_cases hu : u = 0x7FFFFFFFFFFFFFFE ∨ u = 0x7FFFFFFFFFFFFFFF
      · rw [if_pos hu, if_pos]; · rfl
        unfold twos; rw [if_pos (by omega)]; omega
      · rw [if_neg hu, if_neg]; · rfl
        unfold twos; split <;> omega
    · rw [if_neg h8, if_neg h8]; rfl

example : extractLatLon ⟨0, 0, 0, 0, 4, ⟨[0xff, 0xff, 0xff, 0xff], []⟩⟩ 0 4 =
    .ok (some (.f32div (-1) (10 ^ 7))) := by decide

/-- Days since the epoch: the instant, in seconds, that C40 asks for. -/
def dayStart (d : Nat) : Nat := d * 86400

/-- C40 (part): a two-byte day number below 49711 decodes to the start of that day; 0xFFFF and
other widths are reported as errors. -/
theorem C40_partial (m : RawMessage) {start stop : Nat} (h1 : start ≤ stop)
    (h2 : stop ≤ m.data.vis.length) :
    let d := bitsAt m.data.vis (8 * start) (8 * (stop - start))
    (stop - start ≠ 2 → extractDate m start stop = .ok none) ∧
    (stop - start = 2 → d = 0xFFFF → extractDate m start stop = .ok none) ∧
    (stop - start = 2 → d < 49711 → extractDate m start stop = .ok (some (.unix (dayStart d)))) ∧
    (stop - start = 2 → d ≠ 0xFFFF →
      extractDate m start stop = .ok (some (.unix (dayStart d % 2 ^ 32)))) := by
  obtain ⟨r, hr, hv, hl⟩ := sub_len h1 h2
  intro d
  have hn : leNat r.vis = d := by rw [hv, leNat_window]
  clear_value d
  have main : stop - start = 2 → d ≠ 0xFFFF →
      extractDate m start stop = .ok (some (.unix (dayStart d % 2 ^ 32))) := by
    intro h hd
    unfold extractDate
    simp only [hr, bind, Except.bind, hl, h, hn, ne_eq, not_true, if_false]
    rw [if_neg hd]; rfl
  refine ⟨fun h => ?_, fun h hd => ?_, fun h hd => ?_, main⟩
  · unfold extractDate
    simp only [hr, bind, Except.bind, hl, ne_eq, h, not_false_iff, if_true]; rfl
  · unfold extractDate
    simp only [hr, bind, Except.bind, hl, h, hn, ne_eq, not_true, if_false]
    rw [if_pos hd]; rfl
  · rw [main h (by omega), Nat.mod_eq_of_lt]
    unfold dayStart; omega

/-- C40 is false: from day 49711 (2106-02-08) on, every day number yields a wrong instant. -/
theorem C40_false (m : RawMessage) {start stop : Nat} (h1 : start ≤ stop)
    (h2 : stop ≤ m.data.vis.length) (h : stop - start = 2)
    (hd : 49711 ≤ bitsAt m.data.vis (8 * start) 16)
    (hd' : bitsAt m.data.vis (8 * start) 16 ≠ 0xFFFF) :
    ∃ s, extractDate m start stop = .ok (some (.unix s)) ∧
      s < dayStart (bitsAt m.data.vis (8 * start) 16) := by
  have e : 8 * (stop - start) = 16 := by omega
  have := (C40_partial m h1 h2).2.2.2 h (by rw [e]; exact hd')
  rw [e] at this
  refine ⟨_, this, ?_⟩
  have hlt := bitsAt_lt m.data.vis (8 * start) 16
  generalize bitsAt m.data.vis (8 * start) 16 = d at *
  unfold dayStart
  omega

example : extractDate ⟨0, 0, 0, 0, 2, ⟨[0x2f, 0xc2], []⟩⟩ 0 2 = .ok (some (.unix 63104)) := by decide

/-- C41 (part): a four-byte count `u` of ten-thousandths of a second (not 0xFFFFFFFF) decodes to
its hours, minutes and whole seconds; 0xFFFFFFFF and other widths are errors. -/
theorem C41_partial (m : RawMessage) {start stop : Nat} (h1 : start ≤ stop)
    (h2 : stop ≤ m.data.vis.length) :
    let u := bitsAt m.data.vis (8 * start) (8 * (stop - start))
    if stop - start = 4 ∧ u ≠ 0xFFFFFFFF then
      ∃ h mi s ns, extractTime m start stop = .ok (some (.clock h mi s ns)) ∧
        mi < 60 ∧ s < 60 ∧ 3600 * h + 60 * mi + s = u / 10000 ∧ ns = u % 10000 * 10000
    else extractTime m start stop = .ok none := by
  obtain ⟨r, hr, hv, hl⟩ := sub_len h1 h2
  intro u
  have hn : leNat r.vis = u := by rw [hv, leNat_window]
  clear_value u
  by_cases h : stop - start = 4
  · by_cases hu : u = 0xFFFFFFFF
    · rw [if_neg (by simp [hu])]
      unfold extractTime
      simp only [hr, bind, Except.bind, hl, h, hn, ne_eq, not_true, if_false]
      rw [if_pos hu]; rfl
    · rw [if_pos ⟨h, hu⟩]
      refine ⟨u / 10000 / 60 / 60, u / 10000 / 60 % 60, u / 10000 % 60, _, ?_,
        by omega, by omega, by omega, rfl⟩
      unfold extractTime
      simp only [hr, bind, Except.bind, hl, h, hn, ne_eq, not_true, if_false]
      rw [if_neg hu]; rfl
  · rw [if_neg (by simp [h])]
    unfold extractTime
    simp only [hr, bind, Except.bind, hl, ne_eq, h, not_false_iff, if_true]; rfl

/-- C41 is false for the fraction: a ten-thousandth of a second is 100000 ns, and the decoded
fraction is one tenth of that, so it is wrong whenever it is not zero. -/
theorem C41_false (m : RawMessage) {start stop : Nat} (h1 : start ≤ stop)
    (h2 : stop ≤ m.data.vis.length) (h4 : stop - start = 4)
    (hu : bitsAt m.data.vis (8 * start) 32 ≠ 0xFFFFFFFF)
    (hf : bitsAt m.data.vis (8 * start) 32 % 10000 ≠ 0) :
    ∃ h mi s ns, extractTime m start stop = .ok (some (.clock h mi s ns)) ∧
      10 * ns = bitsAt m.data.vis (8 * start) 32 % 10000 * 100000 ∧
      ns ≠ bitsAt m.data.vis (8 * start) 32 % 10000 * 100000 := by
  have e : 8 * (stop - start) = 32 := by omega
  have := C41_partial m h1 h2
  simp only [e] at this
  rw [if_pos ⟨h4, hu⟩] at this
  obtain ⟨h, mi, s, ns, he, _, _, _, hns⟩ := this
  exact ⟨h, mi, s, ns, he, by omega, by omega⟩

example : extractTime ⟨0, 0, 0, 0, 4, ⟨[0x11, 0x27, 0, 0], []⟩⟩ 0 4 =
    .ok (some (.clock 0 0 1 10000)) := by decide

/-- C42: two-byte temperatures (divisor 100) and pressures (divisor 1000): values up to 0xFFFC
decode to `u / div`; 0xFFFD..0xFFFF and other widths are errors. -/
theorem C42_scaled (m : RawMessage) (div : Nat) {start stop : Nat} (h1 : start ≤ stop)
    (h2 : stop ≤ m.data.vis.length) :
    let u := bitsAt m.data.vis (8 * start) (8 * (stop - start))
    extractScaled16 div m start stop =
      .ok (if stop - start = 2 ∧ u ≤ 0xFFFC then some (.f32div u div) else none) := by
  obtain ⟨r, hr, hv, hl⟩ := sub_len h1 h2
  have hn : leNat r.vis = bitsAt m.data.vis (8 * start) (8 * (stop - start)) := by
    rw [hv, leNat_window]
  intro u
  unfold extractScaled16
  simp only [hr, bind, Except.bind, hl, hn]
  change (if _ then _ else (if u ≥ _ then _ else Except.ok (some (Val.f32div ↑u div)))) = _
  by_cases h : stop - start = 2
  · rw [if_neg (by simp [h])]
    by_cases hu : u ≤ 0xFFFC
    · rw [if_neg (by omega), if_pos ⟨h, hu⟩]
    · rw [if_pos (by omega), if_neg (by simp [hu])]; rfl
  · rw [if_pos h, if_neg (by simp [h])]; rfl

example : extractScaled16 100 ⟨0, 0, 0, 0, 2, ⟨[0xfc, 0xff], []⟩⟩ 0 2 =
    .ok (some (.f32div 65532 100)) := by decide

/-- The scan stops at the terminator or at the end of the field. -/
theorem scanString_eq (m : RawMessage) (n i : Nat) (h : i + n ≤ m.data.vis.length) :
    scanString m i n = .ok (i + (untilTerminator (bytesAt m.data.vis i n)).length) := by
  induction n generalizing i with
  | zero => simp [scanString, bytesAt, untilTerminator]
  | succ n ih =>
    have hi : i < m.data.vis.length := by omega
    have hb : bytesAt m.data.vis i (n + 1) = m.data.vis[i] :: bytesAt m.data.vis (i + 1) n := by
      unfold bytesAt; rw [List.drop_eq_getElem_cons hi, List.take_succ_cons]
    unfold scanString
    rw [Slice.get_ok hi]
    simp only [bind, Except.bind, hb, untilTerminator, List.takeWhile_cons]
    by_cases h0 : m.data.vis[i] = 0 ∨ m.data.vis[i] = 255
    · rw [if_pos h0]
      have : (m.data.vis[i] ≠ 0 && m.data.vis[i] ≠ 255) = false := by
        rcases h0 with h | h <;> simp [h]
      rw [if_neg (by rw [this]; simp)]; simp [pure, Except.pure]
    · rw [if_neg h0, ih (i + 1) (by omega)]
      have : (m.data.vis[i] ≠ 0 && m.data.vis[i] ≠ 255) = true := by
        simp only [not_or] at h0; simp [h0]
      simp only [this, if_true, List.length_cons, untilTerminator]
      congr 1; omega

theorem take_untilTerminator (b : List Byte) :
    b.take (untilTerminator b).length = untilTerminator b := by
  have := List.takeWhile_prefix (fun x : Byte => x ≠ 0 && x ≠ 255) (l := b)
  exact (List.prefix_iff_eq_take.mp this).symm

/-- C43 (part): for a field that ends strictly before the end of the message the result is the
bytes up to the first 0 or 255 within the field, and an error iff there are none. -/
theorem C43_partial (m : RawMessage) {start stop : Nat} (h1 : start ≤ stop)
    (h2 : stop < m.data.vis.length) :
    let s := untilTerminator (bytesAt m.data.vis start (stop - start))
    extractString m start stop = .ok (if s = [] then none else some (.chars s)) := by
  intro s
  have hs : start < m.data.vis.length := by omega
  unfold extractString
  rw [if_neg (by simp only [Slice.len]; omega)]
  rw [Slice.get_ok hs]
  simp only [bind, Except.bind]
  by_cases h0 : m.data.vis[start] = 0
  · rw [if_pos h0]
    have : s = [] := by
      show untilTerminator _ = []
      by_cases hz : stop - start = 0
      · rw [hz]; simp [bytesAt, untilTerminator]
      · obtain ⟨k, hk⟩ := Nat.exists_eq_succ_of_ne_zero hz
        rw [hk]
        unfold bytesAt
        rw [List.drop_eq_getElem_cons hs, List.take_succ_cons, untilTerminator, List.takeWhile_cons]
        simp [h0]
    rw [if_pos this]; rfl
  · rw [if_neg h0, scanString_eq m _ _ (by omega)]
    have hle : s.length ≤ stop - start := by
      have h3 : s.length ≤ (bytesAt m.data.vis start (stop - start)).length :=
        (List.takeWhile_sublist _).length_le
      have h4 : (bytesAt m.data.vis start (stop - start)).length ≤ stop - start := by
        simp only [bytesAt, List.length_take]; omega
      omega
    obtain ⟨r, hr, hv, hl⟩ := sub_len (s := m.data) (lo := start) (hi := start + s.length)
      (by omega) (by omega)
    change (match m.data.sub start (start + s.length) with | _ => _) = _
    rw [hr]
    have hrv : r.vis = s := by
      rw [hv, window_eq, Nat.add_sub_cancel_left]
      have := take_untilTerminator (bytesAt m.data.vis start (stop - start))
      have e2 : bytesAt m.data.vis start s.length =
          (bytesAt m.data.vis start (stop - start)).take s.length := by
        unfold bytesAt; rw [List.take_take, Nat.min_eq_left hle]
      rw [e2]; exact this
    simp only [hrv]
    by_cases hn : s = []
    · rw [if_pos hn, if_pos (by simp [hn])]; rfl
    · rw [if_neg hn, if_neg (by simpa using hn)]; rfl

/-- C43 is false: a string field that ends at the end of the message is always an error, whatever
it contains. -/
theorem C43_false (m : RawMessage) (start : Nat) :
    extractString m start m.data.vis.length = .ok none := by
  unfold extractString
  rw [if_pos (by simp [Slice.len])]; rfl

example : extractString ⟨0, 0, 0, 0, 4, ⟨[65, 66, 255, 7], []⟩⟩ 0 3 = .ok (some (.chars [65, 66])) := by
  decide

/-- C44: exact behaviour of `extractStringLZ` for every message and position.  With `L` the length
byte at `start`: the result is the `L - 1` bytes after it when they exist and are not empty, an
error when `L <= 1` or they reach beyond the message -- unless `start + L` exceeds 255, when the
function panics. -/
theorem C44_partial (m : RawMessage) (start : Nat) :
    extractStringLZ m start =
      match m.data.vis[start]? with
      | none => .ok none
      | some l =>
        if l = 0 then .ok none
        else if 256 ≤ start + l.toNat then
          if m.data.vis.length < (start + l.toNat) % 256 then .ok none else .error .slice
        else if l.toNat = 1 ∨ m.data.vis.length < start + l.toNat then .ok none
        else .ok (some (.chars (bytesAt m.data.vis (start + 1) (l.toNat - 1)))) := by
  unfold extractStringLZ
  by_cases hs : start < m.data.vis.length
  · rw [if_neg (by simp only [Slice.len]; omega), Slice.get_ok hs, List.getElem?_eq_getElem hs]
    simp only [bind, Except.bind]
    generalize m.data.vis[start] = l
    by_cases h0 : l = 0
    · rw [if_pos h0, if_pos h0]; rfl
    · rw [if_neg h0, if_neg h0]
      have hl : l.toNat < 256 := l.toNat_lt
      have hl0 : 0 < l.toNat := by
        rcases Nat.eq_zero_or_pos l.toNat with h | h
        · exact absurd (UInt8.toNat_inj.mp (by simpa using h)) h0
        · exact h
      have hst : (l + UInt8.ofNat start).toNat = (start + l.toNat) % 256 := by
        rw [UInt8.toNat_add, UInt8.toNat_ofNat']; omega
      rw [hst]
      by_cases hw : 256 ≤ start + l.toNat
      · rw [if_pos hw]
        by_cases hlen : m.data.vis.length < (start + l.toNat) % 256
        · rw [if_pos hlen, if_pos (by simpa only [Slice.len] using hlen)]; rfl
        · rw [if_neg hlen, if_neg (by simpa only [Slice.len] using hlen)]
          have : m.data.sub (start + 1) ((start + l.toNat) % 256) = .error .slice := by
            unfold Slice.sub; rw [if_neg (by omega)]
          rw [this]
      · rw [if_neg hw, Nat.mod_eq_of_lt (by omega)]
        by_cases hlen : m.data.vis.length < start + l.toNat
        · rw [if_pos (by simpa only [Slice.len] using hlen), if_pos (Or.inr hlen)]; rfl
        · rw [if_neg (by simpa only [Slice.len] using hlen)]
          obtain ⟨r, hr, hv, hrl⟩ := sub_len (s := m.data) (lo := start + 1)
            (hi := start + l.toNat) (by omega) (by omega)
          rw [hr]
          simp only
          by_cases h1 : l.toNat = 1
          · rw [if_pos (by omega), if_pos (Or.inl h1)]; rfl
          · rw [if_neg (by omega), if_neg (by omega), hv, window_eq]
            have : start + l.toNat - (start + 1) = l.toNat - 1 := by omega
            rw [this]; rfl
  · rw [if_pos (by simp only [Slice.len]; omega), List.getElem?_eq_none (by omega)]; rfl

/-- C44 is false: a length byte that wraps crashes the decoder. -/
theorem C44_false :
    extractStringLZ ⟨0, 0, 0, 0, 2, ⟨[1, 255], []⟩⟩ 1 = .error .slice := by decide

example : extractStringLZ ⟨0, 0, 0, 0, 4, ⟨[9, 3, 65, 66], []⟩⟩ 1 = .ok (some (.chars [65, 66])) := by
  decide

end Argo.Nmea2k
