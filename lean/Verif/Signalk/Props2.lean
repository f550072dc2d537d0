import Verif.Signalk.Order
import Verif.Signalk.Calendar
import Verif.Nmea2k.PrintProps

set_option autoImplicit false

/-! # C56 (witness), C59, C61 and the shipped mapping file -/

namespace Argo.Signalk

open Argo Argo.Signalk.Spec

variable {α : Type} {env : Env α} {reps : List Nat} {maps : List Mapping} {msg : Msg α}

/-! ## C56: the order matters when a fieldset shares a field with a single-field mapping -/

/-- A mapping of field 3 alone, and after it one of the fieldset of fields 3 and 4. -/
def sharing : List Mapping :=
  [⟨bs "~/d", [⟨7, ⟨[], []⟩, bs "3", [], [], [], [], []⟩]⟩,
   ⟨bs "~/t", [⟨7, ⟨bs "datetime", [(bs "date", 3), (bs "time", 4)]⟩, [], [], [], [], [], []⟩]⟩]

/-- Values that are all times. -/
def timeEnv : Env Str := { strEnv with asTime := fun _ => some ⟨0, 0⟩ }

theorem C56_false : ∃ (d d' : Data Str), d.Perm d' ∧ (d.map Prod.fst).Nodup ∧
    ∃ r r', delta timeEnv [0] sharing ⟨7, 0, 0, d⟩ = .ok r ∧ delta timeEnv [0] sharing ⟨7, 0, 0, d'⟩ = .ok r' ∧
      ¬ (valuesOf r).Perm (valuesOf r') := by
  refine ⟨[(3, some (bs "x")), (4, some (bs "y"))], [(4, some (bs "y")), (3, some (bs "x"))],
    List.Perm.swap _ _ _, by decide,
    some [⟨7, 0, [(bs "d", .plain (bs "x"))]⟩], some [⟨7, 0, [(bs "t", .text [])]⟩],
    by decide +kernel, by decide +kernel, by decide +kernel⟩

/-! ## C59 -/

/-- Fields of the `j`-th repetition of a multiplier mapping: exactly these indices are selected, and the
path takes the multiplier of the same repetition.  Requires the multiplier before the field and both
within the first repetition counted from index 0 (`fld < rpt`). -/
theorem C59_repetition_partial {g : Group} {rpt : Nat} {fld mlt : Int} (hm : hasMult g)
    (hf : parseInt g.field 64 = (fld, true)) (hmf : (parseInt g.multField 32).1 = mlt)
    (h0 : 0 ≤ mlt) (h1 : mlt < fld) (h2 : fld < rpt) :
    (∀ k, 0 ≤ k → (names g rpt k ↔ ∃ j : Nat, k = fld + j * rpt)) ∧
    ∀ j : Nat, multIndex g rpt (fld + j * rpt) = mlt + j * rpt := by
  have hmul : Spec.multField g = mlt := by unfold Spec.multField; rw [if_pos hm, hmf]
  constructor
  · intro k hk
    unfold names
    rw [hf, hmul]
    simp only [true_and]
    rw [Int.tmod_eq_emod_of_nonneg hk]
    constructor
    · rintro (h | ⟨_, _, _, h⟩)
      · exact ⟨0, by omega⟩
      · refine ⟨(k / rpt).toNat, ?_⟩
        have := Int.mul_ediv_add_emod k rpt
        have hq : 0 ≤ k / rpt := Int.ediv_nonneg hk (by omega)
        rw [Int.toNat_of_nonneg hq, h, Int.mul_comm]; omega
    · rintro ⟨j, rfl⟩
      right
      refine ⟨hm, h0, h1, ?_⟩
      rw [Int.add_mul_emod_self_right, Int.emod_eq_of_lt (by omega) h2]
  · intro j
    unfold multIndex
    rw [hmul]
    have hr : (0 : Int) < rpt := by omega
    have e : fld + j * rpt - mlt = (fld - mlt) + j * rpt := by omega
    have hnn : 0 ≤ (fld - mlt) + (j : Int) * rpt := by
      have : 0 ≤ (j : Int) * rpt := Int.mul_nonneg (by omega) (by omega)
      omega
    rw [e, Int.tdiv_eq_ediv_of_nonneg hnn, Int.add_mul_ediv_right _ _ (by omega),
      Int.ediv_eq_zero_of_lt (by omega) (by omega), Int.zero_add]
    omega

/-- In particular Delta reports every repetition under its own multiplier. -/
theorem C59_delta_partial {r : Option (List (Update α))} (h : delta env reps maps msg = .ok r)
    (hnd : (msg.data.map Prod.fst).Nodup) {mp : Mapping} {g : Group} {fld mlt : Int} (hm : hasMult g)
    (hf : parseInt g.field 64 = (fld, true)) (hmf : (parseInt g.multField 32).1 = mlt)
    (h0 : 0 ≤ mlt) (h1 : mlt < fld) (h2 : fld < rep reps msg)
    {pre post : List (Mapping × Group)} (hsplit : pairs maps = pre ++ (mp, g) :: post)
    (hpgn : g.pgn = msg.pgn) (hacc : accepted env msg.data g.conditions)
    (j : Nat) {v : α} (hv : (fld + j * rep reps msg, some v) ∈ msg.data)
    (hpre : ∀ pg ∈ pre, ¬ applies env msg (rep reps msg) (fld + j * rep reps msg) pg)
    (hc : ¬ consumed (pairs maps) msg.pgn (fld + j * rep reps msg))
    {path : Str} (hpath : path = replaceFirst (bs "{" ++ g.multId ++ bs "}")
        (textOf env (msg.data.get (mlt + j * rep reps msg)))
        (if hasCls g then replaceFirst (bs "{" ++ g.clsId ++ bs "}")
          (textOf env (msg.data.get (parseInt g.clsField 32).1)) (dotted mp.path) else dotted mp.path))
    (hne : path ≠ []) :
    (path, Value.plain v) ∈ valuesOf r := by
  obtain ⟨n1, n2⟩ := C59_repetition_partial (rpt := rep reps msg) hm hf hmf h0 h1 h2
  have hk : 0 ≤ fld + (j : Int) * rep reps msg := by
    have : 0 ≤ (j : Int) * rep reps msg := Int.mul_nonneg (by omega) (by omega)
    omega
  have hp : pathFor env msg.data (rep reps msg) (fld + j * rep reps msg) mp g = path := by
    unfold pathFor
    simp only [if_pos hm, n2 j]
    exact hpath.symm
  rw [← hp]
  refine C55_reported h hnd hv hc hsplit hpre ⟨hpgn, (n1 _ hk).mpr ⟨j, rfl⟩, hacc⟩ ?_
  rw [hp]; exact hne

/-- With the field index at or beyond the size of the group, only the first repetition is selected. -/
theorem C59_limit {g : Group} {rpt : Nat} {fld : Int} (hf : parseInt g.field 64 = (fld, true))
    (hr : 0 < rpt) (h2 : (rpt : Int) ≤ fld) {k : Int} (hk : 0 ≤ k) : names g rpt k ↔ k = fld := by
  unfold names
  rw [hf]
  simp only [true_and]
  rw [Int.tmod_eq_emod_of_nonneg hk]
  have := Int.emod_lt_of_pos k (show (0 : Int) < rpt by omega)
  constructor
  · rintro (h | ⟨_, _, _, h⟩) <;> omega
  · intro h; exact Or.inl h.symm

/-- A repeating group of three fields that starts at index 2: the second repetition (index 6) of field 3
is not reported. -/
theorem C59_false : ∃ (g : Group) (msg : Msg Str) (us : List (Update Str)),
    hasMult g ∧ g.field = bs "3" ∧ g.multField = bs "2" ∧
    delta strEnv [3] [⟨bs "~/{n}/x", [g]⟩] msg = .ok (some us) ∧
    (6, some (bs "second")) ∈ msg.data ∧
    valuesOf (some us) = [(bs "A.x", .plain (bs "first"))] := by
  refine ⟨⟨7, ⟨[], []⟩, bs "3", bs "n", bs "2", [], [], []⟩,
    ⟨7, 0, 0, [(2, some (bs "A")), (3, some (bs "first")), (4, none), (5, some (bs "B")),
      (6, some (bs "second")), (7, none)]⟩,
    [⟨7, 0, [(bs "A.x", .plain (bs "first"))]⟩], by decide +kernel⟩

/-- The shipped multiplier mapping, two lines of AC input. -/
example : delta strEnv [10] MapTable.maps ⟨127503, 1, 0, [(0, some (bs "9")), (1, some (bs "2")),
    (2, some (bs "L1")), (3, some (bs "Good")), (12, some (bs "L2")), (13, some (bs "Bad"))]⟩ =
    .ok (some [⟨127503, 1, [(bs "electric.ac.9.numberOfLines", .plain (bs "2")),
      (bs "electric.ac.9.L1.acceptability", .plain (bs "Good")),
      (bs "electric.ac.9.L2.acceptability", .plain (bs "Bad"))]⟩]) := by decide +kernel

/-! ## C61 -/

/-- The instant a time stamp denotes. -/
def Stamp.instant (s : Stamp) : Int :=
  dayNumber s.year s.month s.day * 86400 + s.hour * 3600 + s.minute * 60 + s.second - s.off

/-- The text of a datetime fieldset, for a date at the instant `u` and a time of day of `s` seconds (four bytes hold
almost five days of them), as nmea2k delivers them in a zone `off` seconds east of UTC: the calendar date of the
instant in that zone, with the whole days of the time added, the time of day, and the zone. -/
theorem C61_any {fs : Fieldset} (data : Data α) (ht : fs.type = bs "datetime") {vd vt : α} {u s off : Int}
    (hd : data.get (fs.lookup (bs "date")) = some vd) (hdt : env.asTime vd = some ⟨u, off⟩)
    (hv : data.get (fs.lookup (bs "time")) = some vt)
    (hvt : env.asTime vt = some (Time.date 1970 1 1 s off)) (h0 : 0 ≤ s) (h1 : s < 432000) :
    ∃ st : Stamp, (fs.parse env data).1 = env.render st ∧
      (st.year, st.month, st.day) = civil ((u + off) / 86400 + s / 86400) ∧
      st.hour = s % 86400 / 3600 ∧ st.minute = s / 60 % 60 ∧ st.second = s % 60 ∧ st.off = off := by
  have e0 : (dayNumber (1970 + (1 - 1) / 12) ((1 - 1) % 12 + 1) 1 + (1 - 1)) = 0 := by decide
  have hsec : (Time.date 1970 1 1 s off).sec = s - off := by
    unfold Time.date; simp only [e0]; omega
  have hoff : (Time.date 1970 1 1 s off).off = off := rfl
  generalize hT : Time.date 1970 1 1 s off = tm at *
  have hday : tm.day = s / 86400 := by unfold Time.day; rw [hsec, hoff]; omega
  have hclock : tm.clock = s % 86400 := by unfold Time.clock; rw [hsec, hoff]; omega
  have hq : civil (s / 86400) = (1970, 1, s / 86400 + 1) := by
    have h5 : s / 86400 = 0 ∨ s / 86400 = 1 ∨ s / 86400 = 2 ∨ s / 86400 = 3 ∨ s / 86400 = 4 := by omega
    rcases h5 with h | h | h | h | h <;> rw [h] <;> decide
  have hdday : (Time.mk u off).day = (u + off) / 86400 := rfl
  generalize hD : (u + off) / 86400 = D at *
  obtain ⟨hc1, hc2, hc3⟩ := dayNumber_civil D
  have hadd : tm.addDate ((civil D).1 - 1970) ((civil D).2.1 - 1)
      ((civil D).2.2 - 1) = ⟨(D + s / 86400) * 86400 + s % 86400 - off, off⟩ := by
    unfold Time.addDate
    rw [hday, hq]
    simp only [hclock, hoff]
    unfold Time.date
    generalize (civil D).1 = y at *
    generalize (civil D).2.1 = mo at *
    generalize (civil D).2.2 = d at *
    have a1 : (1970 + (y - 1970) + (1 + (mo - 1) - 1) / 12) = y := by omega
    have a2 : ((1 + (mo - 1) - 1) % 12 + 1) = mo := by omega
    have a3 : dayNumber y mo 1 + (s / 86400 + 1 + (d - 1) - 1) = D + s / 86400 := by
      rw [← hc1, dayNumber_linear y mo d]; omega
    rw [a1, a2, a3]
  refine ⟨(Time.mk ((D + s / 86400) * 86400 + s % 86400 - off) off).stamp, ?_, ?_⟩
  · unfold Fieldset.parse
    simp only
    rw [if_pos ht, hd, hv]
    simp only [Option.bind_some, hdt, hvt]
    rw [hdday, hadd]
  · have f1 : (Time.mk ((D + s / 86400) * 86400 + s % 86400 - off) off).day = D + s / 86400 := by
      unfold Time.day; simp only; omega
    have f2 : (Time.mk ((D + s / 86400) * 86400 + s % 86400 - off) off).clock = s % 86400 := by
      unfold Time.clock; simp only; omega
    unfold Time.stamp
    rw [f1, f2]
    refine ⟨rfl, rfl, ?_, ?_, rfl⟩ <;> simp only <;> omega

/-- The text of a datetime fieldset, for a date `n` days after 1970-01-01 and a time of day of `s` seconds
as nmea2k delivers them in a zone `off` seconds east of UTC: the calendar date of day
`n + ⌊off/86400⌋`, the time of day, and the zone. -/
theorem C61_text {fs : Fieldset} (data : Data α) (ht : fs.type = bs "datetime") {vd vt : α} {n s off : Int}
    (hd : data.get (fs.lookup (bs "date")) = some vd) (hdt : env.asTime vd = some ⟨n * 86400, off⟩)
    (hv : data.get (fs.lookup (bs "time")) = some vt)
    (hvt : env.asTime vt = some (Time.date 1970 1 1 s off)) (h0 : 0 ≤ s) (h1 : s < 86400) :
    ∃ st : Stamp, (fs.parse env data).1 = env.render st ∧
      (st.year, st.month, st.day) = civil (n + off / 86400) ∧
      st.hour = s / 3600 ∧ st.minute = s / 60 % 60 ∧ st.second = s % 60 ∧ st.off = off := by
  obtain ⟨st, p1, p2, p3, p4⟩ := C61_any data ht hd hdt hv hvt h0 (by omega)
  refine ⟨st, p1, ?_, ?_, p4⟩
  · rw [p2]; congr 1; omega
  · rw [p3]; omega

theorem stamp_instant {st : Stamp} {n s off : Int} (hdate : (st.year, st.month, st.day) = civil n)
    (hh : st.hour = s / 3600) (hm : st.minute = s / 60 % 60) (hs : st.second = s % 60) (ho : st.off = off) :
    st.instant = n * 86400 + s - off := by
  unfold Stamp.instant
  have := (dayNumber_civil n).1
  rw [← hdate] at this
  simp only at this
  rw [this, hh, hm, hs, ho]
  omega

/-- The part of C61 that holds: with the machine's zone set to UTC the text denotes the date and time of
the message.  (Missing: other zones, `C61_false_zone`; values that are not times, `C61_false_empty`.) -/
theorem C61_utc_partial {fs : Fieldset} (data : Data α) (ht : fs.type = bs "datetime") {vd vt : α} {n s : Int}
    (hd : data.get (fs.lookup (bs "date")) = some vd) (hdt : env.asTime vd = some ⟨n * 86400, 0⟩)
    (hv : data.get (fs.lookup (bs "time")) = some vt)
    (hvt : env.asTime vt = some (Time.date 1970 1 1 s 0)) (h0 : 0 ≤ s) (h1 : s < 86400) :
    ∃ st : Stamp, (fs.parse env data).1 = env.render st ∧ st.instant = n * 86400 + s ∧
      (st.year, st.month, st.day) = civil n := by
  obtain ⟨st, p1, p2, p3, p4, p5, p6⟩ := C61_text data ht hd hdt hv hvt h0 h1
  refine ⟨st, p1, ?_, by simpa using p2⟩
  rw [stamp_instant p2 p3 p4 p5 p6]; omega

/-- In every other zone the text denotes another instant; west of UTC even the date is the day before. -/
theorem C61_false_zone {fs : Fieldset} (data : Data α) (ht : fs.type = bs "datetime") {vd vt : α}
    {n s off : Int}
    (hd : data.get (fs.lookup (bs "date")) = some vd) (hdt : env.asTime vd = some ⟨n * 86400, off⟩)
    (hv : data.get (fs.lookup (bs "time")) = some vt)
    (hvt : env.asTime vt = some (Time.date 1970 1 1 s off)) (h0 : 0 ≤ s) (h1 : s < 86400)
    (hoff : off ≠ 0) (hl : -86400 < off) (hh : off < 86400) :
    ∃ st : Stamp, (fs.parse env data).1 = env.render st ∧ st.instant ≠ n * 86400 + s ∧
      (off < 0 → (st.year, st.month, st.day) = civil (n - 1)) := by
  obtain ⟨st, p1, p2, p3, p4, p5, p6⟩ := C61_text data ht hd hdt hv hvt h0 h1
  refine ⟨st, p1, ?_, ?_⟩
  · rw [stamp_instant p2 p3 p4 p5 p6]; omega
  · intro hneg
    rw [p2, show off / 86400 = -1 by omega]
    rfl

/-- Values that are not times: an empty text, once for every data field. -/
theorem C61_false_empty : delta strEnv [0] MapTable.maps ⟨126992, 0, 0,
    [(0, some (bs "1")), (3, some (bs "x")), (4, some (bs "y"))]⟩ =
    .ok (some [⟨126992, 0, [(bs "system.currentTime", .text []), (bs "system.currentTime", .text []),
      (bs "system.currentTime", .text [])]⟩]) := by decide +kernel

/-! ## The shipped mapping file -/

/-- A parsed message of package nmea2k as Delta sees it. -/
def toMsg (p : Nmea2k.Parsed) : Msg Nmea2k.Val :=
  ⟨p.header.pgn, p.header.source, p.index,
    p.data.map (fun e => ((e.1 : Int), match e.2 with | .nil => none | v => some v))⟩

/-- `RepeatingFields` of the shipped table. -/
def shippedReps : List Nat := Nmea2k.Table.pgnList.map (·.repeatingFields)

theorem shipped_paths : ∀ mp ∈ MapTable.maps, 2 ≤ mp.path.length := by decide +kernel

theorem shipped_mult : ∀ mp ∈ MapTable.maps, ∀ g ∈ mp.groups, hasMult g → g.pgn = 127503 := by
  decide +kernel

theorem ac_only : Nmea2k.Spec.onlyDefinition Nmea2k.Table.pgnList 127503 89 Nmea2k.Table.p89 :=
  Nmea2k.onlyB_spec (d := Nmea2k.Table.p89) (by decide +kernel) (by decide +kernel)

/-- ParsePacket copies the message into the header. -/
theorem parsed_header {nenv : Nmea2k.Env} {m : RawMessage} {p : Nmea2k.Parsed}
    (h : Nmea2k.ParsePacket Nmea2k.Table.pgnList nenv m (.ok p)) : p.header = m := by
  have hne : Nmea2k.Table.pgnList ≠ [] := by decide +kernel
  obtain ⟨i, d, hf, hd, _⟩ := Nmea2k.C33_first Nmea2k.Table.pgnList m.pgn hne
  obtain ⟨jj, q, hl, _, _⟩ := Nmea2k.C33_last Nmea2k.Table.pgnList m.pgn hne
  rw [Nmea2k.ParsePacket_iff hf hl] at h
  obtain ⟨n, hn⟩ := h
  obtain ⟨s', _, hok, _⟩ := Nmea2k.run_inv (fun _ => True) (fun _ _ _ _ => trivial) trivial hn
  obtain ⟨he, _⟩ := Nmea2k.step_inr (hok p rfl)
  subst he
  rfl

/-- With the shipped mapping file and PGN table, Delta never panics on the result of ParsePacket. -/
theorem C60_shipped (denv : Env Nmea2k.Val) {nenv : Nmea2k.Env} {m : RawMessage} {p : Nmea2k.Parsed}
    (h : Nmea2k.ParsePacket Nmea2k.Table.pgnList nenv m (.ok p)) :
    ∃ r, delta denv shippedReps MapTable.maps (toMsg p) = .ok r := by
  have hh := parsed_header h
  obtain ⟨d, hd, _⟩ := Nmea2k.any_result Nmea2k.table_noMustInGroup h
  refine C60_delta_partial shipped_paths ?_ ?_
  · have := (List.getElem?_eq_some_iff.mp hd).1
    simpa [shippedReps, toMsg] using this
  · intro mp m1 g m2 hpgn hmul h0
    have h127 := shipped_mult mp m1 g m2 hmul
    have hm : m.pgn = 127503 := by
      rw [← hh]
      have : g.pgn = p.header.pgn := hpgn
      rw [← this, h127]
    obtain ⟨hi, _⟩ := Nmea2k.one_result (m := m) (by rw [hm]; exact ac_only) (by decide +kernel) h
    have : (toMsg p).index = 89 := hi
    rw [this] at h0
    exact absurd h0 (by decide +kernel)

/-- In the shipped mapping file all operations are known and groups with a fieldset have no conditions. -/
theorem shipped_conditions : ∀ mp ∈ MapTable.maps, ∀ g ∈ mp.groups,
    (∀ c ∈ g.conditions, knownOp c.op = true) ∧ (g.fieldset.fields ≠ [] → g.conditions = []) := by
  decide +kernel

/-- C53 in full for the shipped mapping file. -/
theorem C53_shipped {r : Option (List (Update α))} (h : delta env reps MapTable.maps msg = .ok r)
    (hnd : (msg.data.map Prod.fst).Nodup) {p : Str} {w : Value α} (hw : (p, w) ∈ valuesOf r) :
    p ≠ [] ∧ ∃ mp g, mp ∈ MapTable.maps ∧ g ∈ mp.groups ∧ g.pgn = msg.pgn ∧
      (∀ c ∈ g.conditions, holds env msg.data c) ∧
      match w with
      | .plain v => ∃ k, (k, some v) ∈ msg.data ∧ names g (rep reps msg) k ∧
          p = pathFor env msg.data (rep reps msg) k mp g
      | .text _ => complete env msg.data g.fieldset ∧ g.fieldset.fields ≠ [] ∧ p = dotted mp.path := by
  obtain ⟨h1, h2⟩ := C53_delta_partial h hnd
  cases w with
  | plain v =>
    obtain ⟨k, mp, g, k1, k2, k3, k4, k5, k6, k7, k8⟩ := h1 p v hw
    refine ⟨k8, mp, g, k2, k3, k4, ?_, k, k1, k5, k7⟩
    rw [← conditionsMatch_iff] at k6
    exact (C58_conjunction_partial _ (shipped_conditions mp k2 g k3).1).mp k6
  | text s =>
    obtain ⟨mp, g, k2, k3, k4, k5, k6, k7, k8⟩ := h2 p s hw
    refine ⟨k8, mp, g, k2, k3, k4, ?_, k6, k5, k7⟩
    rw [(shipped_conditions mp k2 g k3).2 k5]
    intro c hc; cases hc

theorem shipped_fieldsets : ∀ mp ∈ MapTable.maps, ∀ g ∈ mp.groups, g.pgn ≠ 126992 → g.fieldset.fields = [] := by
  decide +kernel

/-- The mapping and group of the system time. -/
def timePair : Mapping × Group := (MapTable.m10, MapTable.m10.groups.headD default)

theorem shipped_separate (rpt : Nat) : Separate (pairs MapTable.maps) 126992 rpt timePair
    ((pairs MapTable.maps).take 10) ((pairs MapTable.maps).drop 11) := by
  have hmem : ∀ pg ∈ pairs MapTable.maps, pg.2.pgn = 126992 → ¬ hasMult pg.2 ∧
      (parseInt pg.2.field 64 = (1, true) ∨ (parseInt pg.2.field 64).2 = false) := by decide +kernel
  refine ⟨by decide +kernel, by decide +kernel, by decide +kernel, by decide +kernel, by decide +kernel,
    by decide +kernel, by decide +kernel, ?_⟩
  intro f hf pg hpg hp hn
  obtain ⟨h1, h2⟩ := hmem pg hpg hp
  have hall : ∀ f ∈ timePair.2.fieldset.fields, f.2 = 3 ∨ f.2 = 4 := by decide +kernel
  have hf' := hall f hf
  obtain ⟨n1, n2⟩ := hn
  rcases n2 with n2 | ⟨n2, _⟩
  · rcases h2 with h2 | h2
    · rw [h2] at n2; simp only at n2; omega
    · rw [h2] at n1; cases n1
  · exact h1 n2

/-- C56 in full for the shipped mapping file: every message, every two iteration orders. -/
theorem C56_shipped {msg' : Msg α} (hpgn : msg.pgn = msg'.pgn) (hi : msg.index = msg'.index)
    (hnd : (msg.data.map Prod.fst).Nodup) (hp : msg.data.Perm msg'.data)
    {r : Option (List (Update α))} (h : delta env reps MapTable.maps msg = .ok r) :
    ∃ r', delta env reps MapTable.maps msg' = .ok r' ∧ (valuesOf r').Perm (valuesOf r) := by
  by_cases h1 : msg.pgn = 126992
  · exact C56_separate hpgn hi hnd hp (by rw [h1]; exact shipped_separate _) h
  · exact C56_order_partial hpgn hi hnd hp
      (fun mp m1 g m2 hg => shipped_fieldsets mp m1 g m2 (by rw [hg]; exact h1)) h

/-- The system time message with the shipped mapping file: the time stamp is reported exactly once. -/
theorem C61_shipped {r : Option (List (Update α))} (h : delta env reps MapTable.maps msg = .ok r)
    (hnd : (msg.data.map Prod.fst).Nodup) (hpgn : msg.pgn = 126992) {vd vt : α} {n s off : Int}
    (hd : msg.data.get 3 = some vd) (hdt : env.asTime vd = some ⟨n * 86400, off⟩)
    (hv : msg.data.get 4 = some vt) (hvt : env.asTime vt = some (Time.date 1970 1 1 s off))
    (hde : env.isEmpty vd = false) (hve : env.isEmpty vt = false) (h0 : 0 ≤ s) (h1 : s < 86400) :
    ∃ st : Stamp, textPart (valuesOf r) = [(bs "system.currentTime", env.render st)] ∧
      (st.year, st.month, st.day) = civil (n + off / 86400) ∧
      st.hour = s / 3600 ∧ st.minute = s / 60 % 60 ∧ st.second = s % 60 ∧ st.off = off := by
  obtain ⟨_, ht⟩ := separate_exact (env := env) (F := timePair) h hnd
    (by rw [hpgn]; exact shipped_separate _)
  have hdl : timePair.2.fieldset.lookup (bs "date") = 3 := by decide +kernel
  have htl : timePair.2.fieldset.lookup (bs "time") = 4 := by decide +kernel
  obtain ⟨st, p1, p2⟩ := C61_text (env := env) (fs := timePair.2.fieldset) msg.data (by decide +kernel)
    (by rw [hdl]; exact hd) hdt (by rw [htl]; exact hv) hvt h0 h1
  refine ⟨st, ?_, p2⟩
  have hfields : timePair.2.fieldset.fields = [(bs "date", 3), (bs "time", 4)] := by decide +kernel
  have hcomp : complete env msg.data timePair.2.fieldset := by
    intro f hf
    rw [hfields] at hf
    simp only [List.mem_cons, List.not_mem_nil, or_false] at hf
    rcases hf with rfl | rfl
    · exact ⟨vd, hd, hde⟩
    · exact ⟨vt, hv, hve⟩
  have hdot : dotted timePair.1.path = bs "system.currentTime" := by decide +kernel
  have hne : dotted timePair.1.path ≠ [] := by decide +kernel
  have hused : (timePair.2.fieldset.parse env msg.data).2 ≠ [] := by
    unfold Fieldset.parse
    have : timePair.2.fieldset.type = bs "datetime" := by decide +kernel
    simp only
    rw [if_pos this, hdl, htl, hd, hv]
    simp only [Option.bind_some, hdt, hvt]
    intro h0
    have := congrArg (fun m => mapFind m 4) h0
    simp only [mapFind_mapPut] at this
    simp [mapFind] at this
  have hlen : min 1 msg.data.length = 1 := by
    have : msg.data ≠ [] := by intro h0; rw [h0] at hd; simp [Data.get, mapFind] at hd
    have := List.length_pos_iff.mpr this
    omega
  rw [ht, if_pos ⟨hcomp, hne⟩, if_neg hused, hlen, p1, hdot]
  rfl

/-- A message that meets the hypotheses: 2015-07-04 12:34:56 in a zone one hour west. -/
def westEnv : Env Str where
  sprint := id
  isEmpty := fun v => v.isEmpty
  asTime := fun v => if v = bs "d" then some ⟨16620 * 86400, -3600⟩ else some (Time.date 1970 1 1 45296 (-3600))
  render := fun _ => []

example : ∃ r, delta westEnv [0] MapTable.maps
    ⟨126992, 0, 0, [(1, some (bs "GPS")), (3, some (bs "d")), (4, some (bs "t"))]⟩ = .ok (some r) ∧
    civil 16620 = (2015, 7, 4) ∧ civil (16620 + -3600 / 86400) = (2015, 7, 3) := by
  refine ⟨[⟨126992, 0, [(bs "system.currentTimeSource", .plain (bs "GPS")), (bs "system.currentTime", .text [])]⟩],
    by decide +kernel⟩

/-! ### End to end: AC input status -/

/-- Replacement of the first occurrence when the text before it does not contain the first byte. -/
theorem replaceFirst_split {c : Byte} {rest new pre post : Str} (h : c ∉ pre) :
    replaceFirst (c :: rest) new (pre ++ (c :: rest) ++ post) = pre ++ new ++ post := by
  induction pre with
  | nil =>
    have hp : hasPrefix (c :: rest) (c :: (rest ++ post)) = true := by
      unfold hasPrefix
      rw [List.isPrefixOf_iff_prefix]
      exact ⟨post, by simp⟩
    simp only [List.nil_append, List.cons_append]
    unfold replaceFirst
    rw [if_pos hp]
    simp
  | cons a pre ih =>
    simp only [List.mem_cons, not_or] at h
    have hp : ¬ hasPrefix (c :: rest) (a :: (pre ++ (c :: rest) ++ post)) = true := by
      unfold hasPrefix
      rw [List.isPrefixOf_iff_prefix]
      rintro ⟨t, ht⟩
      simp only [List.cons_append, List.cons.injEq] at ht
      exact h.1 ht.1
    have e : a :: pre ++ (c :: rest) ++ post = a :: (pre ++ (c :: rest) ++ post) := by simp
    rw [e]
    unfold replaceFirst
    rw [if_neg hp, ih h.2]
    simp

/-- The entries of a parsed message have the keys 0, 1, 2, … -/
theorem parsed_keys {nenv : Nmea2k.Env} {m : RawMessage} {p : Nmea2k.Parsed}
    (h : Nmea2k.ParsePacket Nmea2k.Table.pgnList nenv m (.ok p)) :
    ((toMsg p).data.map Prod.fst).Nodup := by
  have hne : Nmea2k.Table.pgnList ≠ [] := by decide +kernel
  obtain ⟨i, d, hf, hd, _⟩ := Nmea2k.C33_first Nmea2k.Table.pgnList m.pgn hne
  obtain ⟨jj, q, hl, _, _⟩ := Nmea2k.C33_last Nmea2k.Table.pgnList m.pgn hne
  rw [Nmea2k.ParsePacket_iff hf hl] at h
  obtain ⟨n, hn⟩ := h
  obtain ⟨s', hP, hok, _⟩ := Nmea2k.run_inv (Nmea2k.AnyInv Nmea2k.Table.pgnList)
    (fun s s' hs hst => Nmea2k.anyInv_step Nmea2k.table_noMustInGroup hs hst)
    ⟨rfl, hd, Or.inl ⟨rfl, by simp [Nmea2k.initSt]⟩, rfl⟩ hn
  obtain ⟨he, _⟩ := Nmea2k.step_inr (hok p rfl)
  subst he
  have hk := hP.keys
  have : (s'.data.map (fun e => ((e.1 : Int), match e.2 with | Nmea2k.Val.nil => none | v => some v))).map Prod.fst =
      (s'.data.map Prod.fst).map (fun n : Nat => (n : Int)) := by
    rw [List.map_map, List.map_map]; rfl
  show ((s'.data.map (fun e => ((e.1 : Int), match e.2 with | Nmea2k.Val.nil => none | v => some v))).map Prod.fst).Nodup
  rw [this, hk]
  exact List.Pairwise.map _ (fun a b h => by simpa using h) List.nodup_range

/-- Every line of an AC input status message, as parsed from the bus with the shipped table, is reported
by the shipped mapping file under the AC instance and its own line, for any number of lines. -/
theorem C59_shipped (denv : Env Nmea2k.Val) {nenv : Nmea2k.Env} {m : RawMessage} {p : Nmea2k.Parsed}
    (h : Nmea2k.ParsePacket Nmea2k.Table.pgnList nenv m (.ok p))
    (hm : m.pgn = 127503) {r : Option (List (Update Nmea2k.Val))}
    (hr : delta denv shippedReps MapTable.maps (toMsg p) = .ok r)
    (j : Nat) {v : Nmea2k.Val} (hv : (3 + (j : Int) * 10, some v) ∈ (toMsg p).data)
    (hinst : (123 : Byte) ∉ textOf denv ((toMsg p).data.get 0)) :
    (bs "electric.ac." ++ textOf denv ((toMsg p).data.get 0) ++ bs "." ++
      textOf denv ((toMsg p).data.get (2 + (j : Int) * 10)) ++ bs ".acceptability", Value.plain v) ∈ valuesOf r := by
  have hh := parsed_header h
  obtain ⟨hi, _⟩ := Nmea2k.one_result (m := m) (by rw [hm]; exact ac_only) (by decide +kernel) h
  have hidx : (toMsg p).index = 89 := hi
  have hrep : rep shippedReps (toMsg p) = 10 := by
    unfold rep; rw [hidx]; decide +kernel
  have hpgn : (toMsg p).pgn = 127503 := by show p.header.pgn = _; rw [hh, hm]
  have hgrp : MapTable.m12.groups.headD default ∈ MapTable.m12.groups := by decide +kernel
  have hpre : ∀ pg ∈ (pairs MapTable.maps).take 12, pg.2.pgn = 127503 →
      ¬ hasMult pg.2 ∧ parseInt pg.2.field 64 = (1, true) := by decide +kernel
  refine C59_delta_partial (mp := MapTable.m12) (g := MapTable.m12.groups.headD default)
    (fld := 3) (mlt := 2) (pre := (pairs MapTable.maps).take 12) (post := (pairs MapTable.maps).drop 13)
    hr (parsed_keys h) (by decide +kernel) (by decide +kernel) (by decide +kernel) (by decide) (by decide)
    (by rw [hrep]; decide) (by decide +kernel) (by rw [hpgn]; decide +kernel) ?_ j
    (by rw [hrep]; exact hv) ?_ ?_ ?_ ?_
  · intro c hc
    have : (MapTable.m12.groups.headD default).conditions = [] := by decide +kernel
    rw [this] at hc; cases hc
  · rw [hrep]
    intro pg hpg hap
    obtain ⟨h1, h2⟩ := hpre pg hpg (by rw [← hpgn]; exact hap.1)
    obtain ⟨_, hn⟩ := hap.2.1
    rcases hn with hn | ⟨hn, _⟩
    · rw [h2] at hn; simp only at hn; omega
    · exact h1 hn
  · rintro ⟨pg, hpg, h1, h2, _⟩
    obtain ⟨m1, m2⟩ := mem_pairs.mp (show (pg.1, pg.2) ∈ pairs MapTable.maps from hpg)
    exact h2 (shipped_fieldsets _ m1 _ m2 (by rw [h1, hpgn]; decide))
  · have hc : hasCls (MapTable.m12.groups.headD default) := by decide +kernel
    have hcf : (parseInt (MapTable.m12.groups.headD default).clsField 32).1 = 0 := by decide +kernel
    rw [if_pos hc, hcf, hrep]
    have e1 : dotted MapTable.m12.path = bs "electric.ac." ++
        (123 :: (bs "instance" ++ bs "}")) ++ bs ".{line}.acceptability" := by decide +kernel
    have e2 : bs "{" ++ (MapTable.m12.groups.headD default).clsId ++ bs "}" =
        123 :: (bs "instance" ++ bs "}") := by decide +kernel
    have e3 : bs "{" ++ (MapTable.m12.groups.headD default).multId ++ bs "}" =
        123 :: (bs "line" ++ bs "}") := by decide +kernel
    have e4 : bs ".{line}.acceptability" = bs "." ++ (123 :: (bs "line" ++ bs "}")) ++ bs ".acceptability" := by
      decide +kernel
    have n1 : (123 : Byte) ∉ bs "electric.ac." := by decide +kernel
    have n2 : (123 : Byte) ∉ bs "." := by decide +kernel
    rw [e1, e2, e3, replaceFirst_split n1, e4]
    have := replaceFirst_split (c := 123) (rest := bs "line" ++ bs "}")
      (new := textOf denv ((toMsg p).data.get (2 + (j : Int) * 10)))
      (pre := bs "electric.ac." ++ textOf denv ((toMsg p).data.get 0) ++ bs ".")
      (post := bs ".acceptability")
      (by simp only [List.mem_append, not_or]; exact ⟨⟨n1, hinst⟩, n2⟩)
    simp only [List.append_assoc] at this ⊢
    exact this.symm
  · have : bs "electric.ac." ≠ [] := by decide +kernel
    intro h0
    simp only [List.append_eq_nil_iff] at h0
    exact this h0.1.1.1.1

end Argo.Signalk
