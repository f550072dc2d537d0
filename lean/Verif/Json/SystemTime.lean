import Verif.Json.Bits
import Verif.Signalk.Gregorian

set_option autoImplicit false

/-! # C123: the time a client reads in a system time message (PGN 126992) -/

namespace Argo.Json

open Argo Argo.Main
open Argo.Nmea2k (Parsed Val)
open Argo.Nmea2k.Table (pgnList)
open Argo.Nmea2k.Spec (onlyDefinition entryOf entryPos byteCount bitsAt fieldValue)
open Argo.Signalk (Value bs Stamp Time Str calendar civil)
open Argo.Signalk.Spec (textPart)

/-! ## Specification -/

/-- The date and the time in a system time message: days since 1 January 1970 in bytes 2 and 3, ten-thousandths of a second
since midnight in bytes 4 to 7, least byte first; none if the message is too short or all bits of one of them are set. -/
def systemTime : List Byte → Option (Nat × Nat)
  | _ :: _ :: d0 :: d1 :: t0 :: t1 :: t2 :: t3 :: _ =>
    let days := d0.toNat + 256 * d1.toNat
    let ticks := t0.toNat + 256 * t1.toNat + 65536 * t2.toNat + 16777216 * t3.toNat
    if days = 65535 ∨ ticks = 4294967295 then none else some (days, ticks)
  | _ => none

/-- The components of the time `secs` seconds after the midnight that begins the day `n` days after 1 January 1970. -/
def stampOf (n secs : Nat) (off : Int) : Stamp :=
  ⟨(calendar (n + secs / 86400)).1, (calendar (n + secs / 86400)).2.1, (calendar (n + secs / 86400)).2.2,
    (secs / 3600 % 24 : Nat), (secs / 60 % 60 : Nat), (secs % 60 : Nat), off⟩

/-- A computer whose zone is `off` seconds east of UTC all the year: what `nmea2k` makes of dates and times of day, and
Go `t.Format(time.RFC3339)`. -/
structure Zone (denv : Signalk.Env Val) (off : Int) : Prop where
  date : ∀ s, denv.asTime (.unix s) = some ⟨s, off⟩
  time : ∀ h m s ns, denv.asTime (.clock h m s ns) =
    some (Time.date 1970 1 1 ((3600 * h + 60 * m + s + ns / 10 ^ 9 : Nat) : Int) off)
  render : ∀ st, denv.render st = ascii (rfc3339 st 0)

/-- A value of a delta has this path. -/
def hasPath (name : String) : Json → Bool
  | .obj ((k, .str s) :: _) => k == "path".toList && s == name.toList
  | _ => false

/-- The values of a delta. -/
def deltaValues : Json → List Json
  | .obj [_, (_, .arr [.obj [_, _, (_, .arr vs)]])] => vs
  | _ => []

/-- The delta has exactly one current time, that of the message as an RFC 3339 text in UTC; or none if the message has none. -/
def TimeShown (data : List Byte) (j : Json) : Prop :=
  match systemTime data with
  | some (days, ticks) => ∃ text, ShowsInstant (stampOf days (ticks / 10000) 0) 0 text ∧
      (deltaValues j).filter (hasPath "system.currentTime") =
        [.obj [("path".toList, .str "system.currentTime".toList), ("value".toList, .str text)]]
  | none => (deltaValues j).filter (hasPath "system.currentTime") = []

/-! ## Proofs -/

theorem time_only : onlyDefinition pgnList 126992 70 Nmea2k.Table.p70 :=
  Nmea2k.onlyB_spec (d := Nmea2k.Table.p70) (by decide +kernel) (by decide +kernel)

theorem time_mapped : ∃ pg ∈ Signalk.Spec.pairs Signalk.MapTable.maps, pg.2.pgn = 126992 := by
  have h : (Signalk.Spec.pairs Signalk.MapTable.maps).any (fun pg => pg.2.pgn == 126992) = true := by decide +kernel
  obtain ⟨pg, h1, h2⟩ := List.any_eq_true.mp h
  exact ⟨pg, h1, by simpa using h2⟩

variable {denv : Signalk.Env Val} {conv : Int → Nat} {v : MsgView} {p : Parsed}

/-- The data of a decoded system time message. -/
theorem time_data (hdec : Iface.Decoded (Nmea2k.shippedEnv conv) v p) (hpgn : v.pgn = 126992) (hne : v.data ≠ [])
    {order : Nmea2k.DataMap} (hperm : order.Perm p.data) (k : Nat) :
    (Signalk.toMsg { p with data := order }).data.get (k : Int) =
      EntryOnWire (Nmea2k.shippedEnv conv) v Nmea2k.Table.p70 k := by
  obtain ⟨hv, hp⟩ := hdec
  have hpg : p.header.pgn = v.pgn := by rw [← hv]; rfl
  have hdata : p.header.data.vis = v.data := by rw [← hv]; rfl
  obtain ⟨pg, hpgm, hpgv⟩ := time_mapped
  obtain ⟨h60, i, d, ho, hmis⟩ := mapped_only pg hpgm (by rw [hpgv]; decide)
  have hsz := table_sizes pg hpgm (by rw [hpgv]; decide) d (List.mem_of_getElem? ho.1) (by rw [ho.2.1])
  rw [hpgv] at h60 ho
  have hi0 : i = 70 := time_only.2.2 i d ho.1 ho.2.1
  subst hi0
  have hd0 : d = Nmea2k.Table.p70 := by have := ho.1; rw [time_only.1] at this; exact (Option.some.inj this).symm
  subst hd0
  have hdef : Nmea2k.Spec.definitions pgnList p.header.pgn 70 70 := by
    rw [hpg, hpgn]
    refine ⟨Nat.le_refl _, (List.getElem?_eq_some_iff.mp ho.1).1, fun t q hq => ⟨fun h => ?_, fun h => ?_⟩⟩
    · have := ho.2.2 t q hq h; omega
    · have : t = 70 := by omega
      subst this
      rw [ho.1] at hq; rw [← Option.some.inj hq]; exact ho.2.1
  have hi := (Nmea2k.one_result (m := p.header) (i := 70) (d := Nmea2k.Table.p70) (by rw [hpg, hpgn]; exact ho)
    (table_groups _ (List.mem_of_getElem? ho.1)) hp).1
  obtain ⟨_, hread⟩ := Nmea2k.C117_partial hdef (by rw [hpg, hpgn]; exact h60) (by
    intro t q a b hq
    rw [hdata]
    have : t = 70 := by omega
    subst this
    have : q = Nmea2k.Table.p70 := by rw [ho.1] at hq; exact (Option.some.inj hq).symm
    subst this
    intro k f hf hk
    have hall : Nmea2k.Table.p70.fieldList.zipIdx.all (fun x =>
        decide (8 ≤ Nmea2k.Spec.position Nmea2k.Table.p70.fieldList x.2) || decide (byteCount x.1.size ≤ 1)) = true := by
      decide +kernel
    have h3 := List.all_eq_true.mp hall (f, k) (List.mem_zipIdx_iff_getElem?.mpr hf)
    rw [Bool.or_eq_true, decide_eq_true_eq, decide_eq_true_eq] at h3
    have := List.length_pos_iff.mpr hne
    rcases h3 with h3 | h3
    · have h3 : 8 ≤ Nmea2k.Spec.position Nmea2k.Table.p70.fieldList k := h3
      omega
    · have h3 : byteCount f.size ≤ 1 := h3
      omega) hp
  obtain ⟨d', hd', _, r1, r2, r3⟩ := hread (by omega)
  have : d' = Nmea2k.Table.p70 := by rw [hi, ho.1] at hd'; exact (Option.some.inj hd').symm
  subst this
  rw [hdata] at r2 r3
  exact (entries_get hsz ⟨r1, fun k hk => by
      obtain ⟨f, f1, f2, f3⟩ := r2 k hk
      exact ⟨f, f1, f2, fun _ => f3 (by rw [hi]; exact hmis k)⟩, r3⟩ hperm).2.2 k

/-- What the decoder makes of the date and the time. -/
theorem time_entries (env : Nmea2k.Env) (v : MsgView) :
    match systemTime v.data with
    | some (days, ticks) => days < 65535 ∧ ticks < 4294967295 ∧
      EntryOnWire env v Nmea2k.Table.p70 3 = some (.unix (days * 86400 % 2 ^ 32)) ∧
      EntryOnWire env v Nmea2k.Table.p70 4 =
        some (.clock (ticks / 36000000) (ticks / 600000 % 60) (ticks / 10000 % 60) (ticks % 10000 * 10000))
    | none => EntryOnWire env v Nmea2k.Table.p70 3 = none ∨ EntryOnWire env v Nmea2k.Table.p70 4 = none := by
  have p3 : entryPos Nmea2k.Table.p70 3 = 16 := by decide +kernel
  have p4 : entryPos Nmea2k.Table.p70 4 = 32 := by decide +kernel
  obtain ⟨f3, e3, r3, s3⟩ : ∃ f, entryOf Nmea2k.Table.p70 3 = some f ∧ f.res = .date ∧ byteCount f.size = 2 :=
    ⟨_, rfl, rfl, by decide⟩
  obtain ⟨f4, e4, r4, s4⟩ : ∃ f, entryOf Nmea2k.Table.p70 4 = some f ∧ f.res = .time ∧ byteCount f.size = 4 :=
    ⟨_, rfl, rfl, by decide⟩
  have hreach : ∀ k, k ≤ 4 → 8 ≤ v.data.length → Reaches v.data Nmea2k.Table.p70 k := by
    intro k hk hlen l hl
    have : ∀ l ≤ 4, ∃ f, entryOf Nmea2k.Table.p70 l = some f ∧ entryPos Nmea2k.Table.p70 l / 8 + byteCount f.size ≤ 8 := by
      intro l hl
      have : l = 0 ∨ l = 1 ∨ l = 2 ∨ l = 3 ∨ l = 4 := by omega
      rcases this with rfl | rfl | rfl | rfl | rfl
      · exact ⟨_, rfl, by decide +kernel⟩
      · exact ⟨_, rfl, by decide +kernel⟩
      · exact ⟨_, rfl, by decide +kernel⟩
      · exact ⟨_, rfl, by decide +kernel⟩
      · exact ⟨_, rfl, by decide +kernel⟩
    obtain ⟨f, g1, g2⟩ := this l (by omega)
    exact ⟨f, g1, by omega⟩
  have v3 : ∀ w : MsgView, fieldValue env w.data f3 16 =
      if bitsAt w.data 16 16 ≠ 65535 then some (.unix (bitsAt w.data 16 16 * 86400 % 2 ^ 32)) else none := by
    intro w
    unfold fieldValue
    simp only [r3, s3, true_and]
  have v4 : ∀ w : MsgView, fieldValue env w.data f4 32 =
      if bitsAt w.data 32 32 ≠ 4294967295 then some (.clock (bitsAt w.data 32 32 / 36000000) (bitsAt w.data 32 32 / 600000 % 60)
        (bitsAt w.data 32 32 / 10000 % 60) (bitsAt w.data 32 32 % 10000 * 10000)) else none := by
    intro w
    unfold fieldValue
    simp only [r4, s4, true_and]
  by_cases hlen : 8 ≤ v.data.length
  · have w3 : EntryOnWire env v Nmea2k.Table.p70 3 = given (fieldValue env v.data f3 16) := by
      unfold EntryOnWire; rw [if_pos (hreach 3 (by omega) hlen), e3, p3]; rfl
    have w4 : EntryOnWire env v Nmea2k.Table.p70 4 = given (fieldValue env v.data f4 32) := by
      unfold EntryOnWire; rw [if_pos (hreach 4 (by omega) hlen), e4, p4]; rfl
    rw [w3, w4, v3, v4]
    match hd : v.data, hlen with
    | a :: b :: d0 :: d1 :: t0 :: t1 :: t2 :: t3 :: rest, _ =>
      have b3 : bitsAt (a :: b :: d0 :: d1 :: t0 :: t1 :: t2 :: t3 :: rest) 16 16 = d0.toNat + 256 * d1.toNat := by
        rw [Nmea2k.bitsAt_eq]
        simp only [Nmea2k.leNat]
        have := a.toNat_lt; have := b.toNat_lt; have := d0.toNat_lt; have := d1.toNat_lt
        omega
      have b4 : bitsAt (a :: b :: d0 :: d1 :: t0 :: t1 :: t2 :: t3 :: rest) 32 32 =
          t0.toNat + 256 * t1.toNat + 65536 * t2.toNat + 16777216 * t3.toNat := by
        rw [Nmea2k.bitsAt_eq]
        simp only [Nmea2k.leNat]
        have := a.toNat_lt; have := b.toNat_lt; have := d0.toNat_lt; have := d1.toNat_lt
        have := t0.toNat_lt; have := t1.toNat_lt; have := t2.toNat_lt; have := t3.toNat_lt
        omega
      rw [b3, b4]
      have := d0.toNat_lt; have := d1.toNat_lt
      have := t0.toNat_lt; have := t1.toNat_lt; have := t2.toNat_lt; have := t3.toNat_lt
      unfold systemTime
      simp only
      have hd : d0.toNat + 256 * d1.toNat < 65536 := by omega
      have ht : t0.toNat + 256 * t1.toNat + 65536 * t2.toNat + 16777216 * t3.toNat < 4294967296 := by omega
      generalize d0.toNat + 256 * d1.toNat = days at *
      generalize t0.toNat + 256 * t1.toNat + 65536 * t2.toNat + 16777216 * t3.toNat = ticks at *
      by_cases h1 : days = 65535
      · rw [if_pos (Or.inl h1)]
        simp only
        left; rw [if_neg (by simpa using h1)]; rfl
      · by_cases h2 : ticks = 4294967295
        · rw [if_pos (Or.inr h2)]
          simp only
          right; rw [if_neg (by simpa using h2)]; rfl
        · rw [if_neg (by simp [h1, h2]), if_pos h1, if_pos h2]
          simp only
          refine ⟨by omega, by omega, rfl, rfl⟩
  · have hn : systemTime v.data = none := by
      unfold systemTime
      split
      · rename_i h; rw [h] at hlen; simp at hlen
      · rfl
    rw [hn]
    right
    unfold EntryOnWire
    rw [if_neg]
    intro h
    obtain ⟨f, g1, g2⟩ := h 4 (Nat.le_refl _)
    rw [e4] at g1
    cases g1
    rw [p4, s4] at g2
    omega

theorem stampOf_eq {st : Stamp} {n secs : Nat} {off : Int}
    (h1 : (st.year, st.month, st.day) = civil ((n + secs / 86400 : Nat) : Int)) (h2 : st.hour = (secs : Int) % 86400 / 3600)
    (h3 : st.minute = (secs : Int) / 60 % 60) (h4 : st.second = (secs : Int) % 60) (h5 : st.off = off) :
    st = stampOf n secs off := by
  rw [Signalk.civil_calendar] at h1
  obtain ⟨y, m, d, h, mi, s, o⟩ := st
  simp only [Prod.mk.injEq] at h1 h2 h3 h4 h5
  obtain ⟨a, b, c⟩ := h1
  subst a b c h2 h3 h4 h5
  unfold stampOf
  congr 1
  omega

/-- In any zone: the texts reported of a system time message. -/
theorem time_text (hprints : Signalk.Prints denv) {off : Int} (hz : Zone denv off)
    (hdec : Iface.Decoded (Nmea2k.shippedEnv conv) v p) (hpgn : v.pgn = 126992) (hne : v.data ≠ [])
    {values : List (Str × Value Val)} (hr : Reports denv p values) :
    match systemTime v.data with
    | some (days, ticks) => ∃ st, textPart values = [(bs "system.currentTime", ascii (rfc3339 st 0))] ∧
        (st.year, st.month, st.day) = civil (((days * 86400 % 2 ^ 32 : Nat) + off) / 86400 + (ticks / 10000 : Nat) / 86400) ∧
        st.hour = ((ticks / 10000 : Nat) : Int) % 86400 / 3600 ∧ st.minute = ((ticks / 10000 : Nat) : Int) / 60 % 60 ∧
        st.second = ((ticks / 10000 : Nat) : Int) % 60 ∧ st.off = off
    | none => textPart values = [] := by
  obtain ⟨d', order, hd', hperm, _, htime, _⟩ := hr
  have hpg : p.header.pgn = v.pgn := by rw [← hdec.1]; rfl
  have htt := htime (by show p.header.pgn = _; rw [hpg, hpgn])
  have g3 := time_data hdec hpgn hne hperm 3
  have g4 := time_data hdec hpgn hne hperm 4
  have hent := time_entries (Nmea2k.shippedEnv conv) v
  have hemp : ∀ w : Val, w ≠ .text "" → denv.isEmpty w = false := by
    intro w hw
    cases h : denv.isEmpty w with
    | false => rfl
    | true => exact absurd (hprints.empty w h) hw
  unfold Signalk.TimeTexts Signalk.Present at htt
  simp only [show ((3 : Nat) : Int) = 3 from rfl] at g3
  simp only [show ((4 : Nat) : Int) = 4 from rfl] at g4
  rw [g3, g4] at htt
  cases hsys : systemTime v.data with
  | none =>
    rw [hsys] at hent
    simp only at hent ⊢
    rcases htt with ⟨h, _⟩ | ⟨vd, vt, ⟨h1, _⟩, ⟨h2, _⟩, _⟩
    · exact h
    · rcases hent with h | h
      · rw [h] at h1; cases h1
      · rw [h] at h2; cases h2
  | some dt =>
    obtain ⟨days, ticks⟩ := dt
    rw [hsys] at hent
    simp only at hent ⊢
    obtain ⟨b1, b2, e3, e4⟩ := hent
    rw [e3, e4] at htt
    rcases htt with ⟨_, h⟩ | ⟨vd, vt, ⟨h1, _⟩, ⟨h2, _⟩, hcase⟩
    · exact absurd ⟨_, _, ⟨rfl, hemp _ (by simp)⟩, ⟨rfl, hemp _ (by simp)⟩⟩ h
    · cases h1
      cases h2
      rw [hz.date, hz.time] at hcase
      rcases hcase with ⟨dt, tm, t, c1, c2, c3, c4⟩ | ⟨h | h, _⟩
      · cases c1
        cases c2
        have hsecs : 3600 * (ticks / 36000000) + 60 * (ticks / 600000 % 60) + ticks / 10000 % 60 +
            ticks % 10000 * 10000 / 10 ^ 9 = ticks / 10000 := by omega
        rw [hsecs] at c4
        obtain ⟨st, s1, s2⟩ := c4 _ _ _ rfl rfl (by omega) (by omega)
        exact ⟨st, by rw [c3, s1, hz.render], s2⟩
      · cases h
      · cases h

/-- The only field of a system time message that is reported as it is is its source. -/
theorem time_path {values : List (Str × Value Val)} (hr : Reports denv p values) (hpgn : p.header.pgn = 126992) {path : Str}
    {val : Val} (hm : (path, Value.plain val) ∈ values) : path = bs "system.currentTimeSource" := by
  obtain ⟨d', order, _, _, hpl, _⟩ := hr
  rw [← Signalk.mem_plainPart, hpl, List.mem_filterMap] at hm
  obtain ⟨⟨kk, o⟩, _, hcon⟩ := hm
  unfold Signalk.Spec.contribution at hcon
  obtain ⟨pg, hfind, hcon⟩ := Option.bind_eq_some_iff.mp hcon
  have hpgm := List.mem_of_find?_eq_some hfind
  have hap := (List.find?_eq_some_iff_append.mp hfind).1
  have hap : Signalk.Spec.applies denv (Signalk.toMsg { p with data := order }) d'.repeatingFields kk pg := by simpa using hap
  have h : ∀ pg ∈ Signalk.Spec.pairs Signalk.MapTable.maps, pg.2.pgn = 126992 → (Signalk.parseInt pg.2.field 64).2 = true →
      Signalk.Spec.dotted pg.1.path = bs "system.currentTimeSource" ∧ ¬ Signalk.Spec.hasCls pg.2 ∧
        ¬ Signalk.Spec.hasMult pg.2 := by decide +kernel
  obtain ⟨q1, q2, q3⟩ := h pg hpgm (by rw [← hpgn]; exact hap.1) hap.2.1.1
  obtain ⟨val', _, hcon⟩ := Option.bind_eq_some_iff.mp hcon
  split at hcon
  · cases hcon
  · injection hcon with hcon
    injection hcon with c1 _
    rw [← c1]
    unfold Signalk.Spec.pathFor
    simp only [if_neg q2, if_neg q3]
    exact q1

theorem filter_texts {enc : Enc} {values : List (Str × Value Val)} {vs : List Json}
    (h : List.Forall₂ (fun pv v => ∃ x, Shown enc pv.2 x ∧
      v = Json.obj [("path".toList, .str (chars pv.1)), ("value".toList, x)]) values vs)
    (hp : ∀ path val, (path, Value.plain val) ∈ values → path = bs "system.currentTimeSource")
    (ht : ∀ e ∈ textPart values, e.1 = bs "system.currentTime") :
    vs.filter (hasPath "system.currentTime") = (textPart values).map fun e =>
      .obj [("path".toList, .str "system.currentTime".toList), ("value".toList, .str (chars e.2))] := by
  induction h with
  | nil => rfl
  | @cons pv o l l' h1 _ ih =>
    obtain ⟨path, val⟩ := pv
    obtain ⟨x, hx, rfl⟩ := h1
    cases val with
    | plain val =>
      have ht' : textPart ((path, Value.plain val) :: l) = textPart l := rfl
      rw [ht'] at ht ⊢
      rw [← ih (fun q w hw => hp q w (List.mem_cons_of_mem _ hw)) ht, List.filter_cons_of_neg]
      have := hp path val List.mem_cons_self
      subst this
      simp only [hasPath, chars_bs]
      decide +kernel
    | text t =>
      have ht' : textPart ((path, Value.text t) :: l) = (path, t) :: textPart l := rfl
      rw [ht'] at ht ⊢
      have := ht _ List.mem_cons_self
      simp only at this
      subst this
      rw [List.filter_cons_of_pos (by simp only [hasPath, chars_bs]; decide +kernel), List.map_cons,
        ih (fun q w hw => hp q w (List.mem_cons_of_mem _ hw)) (fun e he => ht e (List.mem_cons_of_mem _ he)), chars_bs]
      cases hx
      rfl

theorem stampOf_shown (n secs : Nat) (h : n * 86400 + secs < 2 ^ 33) :
    ShowsInstant (stampOf n secs 0) 0 (rfc3339 (stampOf n secs 0) 0) := by
  have hst : (Time.mk (n * 86400 + secs : Nat) 0).stamp = stampOf n secs 0 := by
    have hday : (Time.mk (n * 86400 + secs : Nat) 0).day = ((n + secs / 86400 : Nat) : Int) := by
      unfold Time.day; simp only; omega
    have hclock : (Time.mk (n * 86400 + secs : Nat) 0).clock = ((secs % 86400 : Nat) : Int) := by
      unfold Time.clock; simp only; omega
    apply stampOf_eq
    · unfold Time.stamp; simp only [hday]
    · unfold Time.stamp; simp only [hclock]; omega
    · unfold Time.stamp; simp only [hclock]; omega
    · unfold Time.stamp; simp only [hclock]; omega
    · rfl
  have hsome := timeText_some (sec := (n * 86400 + secs : Nat)) (off := 0) (by omega) (by omega) 0
  have hoff : (Time.mk (n * 86400 + secs : Nat) 0).off = 0 := rfl
  generalize Time.mk (n * 86400 + secs : Nat) 0 = t at *
  unfold timeOut at hsome
  have ht : timeText t 0 = some (rfc3339 t.stamp 0) := by
    unfold timeText at hsome ⊢
    split
    · rfl
    · rename_i hy
      rw [if_neg hy] at hsome
      exact absurd rfl hsome
  have := rfc3339_spec ht (by decide) (by rw [hoff]; decide) (by rw [hoff]; decide)
  rw [hst] at this
  exact this

/-! ## C123 -/

/-- **C123** (one message), for dates up to 6 February 2106 and a computer set to UTC: the delta of a system time message with a
date and a time has exactly one current time, their RFC 3339 text; without one of them it has none.  (Missing: later dates,
`C123_wrap_false`; other zones, `C123_zone_false`; empty messages.) -/
theorem C123_delta_partial {enc : Enc} (hprints : Signalk.Prints denv) (hz : Zone denv 0)
    (hdec : Iface.Decoded (Nmea2k.shippedEnv conv) v p) (hpgn : v.pgn = 126992) (hne : v.data ≠ [])
    (hdate : ∀ days ticks, systemTime v.data = some (days, ticks) → days ≤ 49710)
    {values : List (Str × Value Val)} (hr : Reports denv p values) {now pgn : Nat} {source : Byte} {j : Json}
    (hj : DeltaJson enc now pgn source values j) : TimeShown v.data j := by
  have hpg : p.header.pgn = 126992 := by rw [← hpgn, ← hdec.1]; rfl
  obtain ⟨ts, vs, _, hfa, rfl⟩ := hj
  have htext := time_text hprints hz hdec hpgn hne hr
  have hent := time_entries (Nmea2k.shippedEnv conv) v
  unfold TimeShown
  cases hsys : systemTime v.data with
  | none =>
    rw [hsys] at htext
    simp only at htext ⊢
    have := filter_texts hfa (fun _ _ => time_path hr hpg) (by rw [htext]; simp)
    rw [htext] at this
    exact this
  | some dt =>
    obtain ⟨days, ticks⟩ := dt
    have h1 := hdate days ticks hsys
    rw [hsys] at htext hent
    simp only at htext hent ⊢
    obtain ⟨st, t1, t2, t3, t4, t5, t6⟩ := htext
    have hst : st = stampOf days (ticks / 10000) 0 := by
      refine stampOf_eq ?_ t3 t4 t5 t6
      rw [t2]
      congr 1
      omega
    have := filter_texts hfa (fun _ _ => time_path hr hpg) (by rw [t1]; simp)
    rw [t1, hst] at this
    refine ⟨_, stampOf_shown days (ticks / 10000) (by omega), ?_⟩
    refine this.trans ?_
    simp only [List.map_cons, List.map_nil]
    rw [chars_ascii (rfc3339_ascii _ _)]

/-- The days of the calendar are different. -/
theorem calendar_inj {a b : Nat} (h : calendar a = calendar b) : a = b := by
  have h1 := Signalk.dayNumber_calendar a
  have h2 := Signalk.dayNumber_calendar b
  rw [h] at h1
  omega

/-- **C123** is false of later dates: the decoder keeps the seconds since 1970 in 32 bits, so that from 8 February 2106 on
the time reported is 136 years in the past. -/
theorem C123_wrap_false (hprints : Signalk.Prints denv) (hz : Zone denv 0)
    (hdec : Iface.Decoded (Nmea2k.shippedEnv conv) v p) (hpgn : v.pgn = 126992) {days ticks : Nat}
    (hsys : systemTime v.data = some (days, ticks)) (hdays : 49711 ≤ days)
    {values : List (Str × Value Val)} (hr : Reports denv p values) :
    textPart values = [(bs "system.currentTime",
      ascii (rfc3339 (stampOf ((days * 86400 - 2 ^ 32) / 86400) (ticks / 10000) 0) 0))] ∧
    calendar ((days * 86400 - 2 ^ 32) / 86400) ≠ calendar days := by
  have hne : v.data ≠ [] := by intro h; rw [h] at hsys; simp [systemTime] at hsys
  have htext := time_text hprints hz hdec hpgn hne hr
  have hent := time_entries (Nmea2k.shippedEnv conv) v
  rw [hsys] at htext hent
  simp only at htext hent
  obtain ⟨st, t1, t2, t3, t4, t5, t6⟩ := htext
  refine ⟨?_, fun h => ?_⟩
  · have hst : st = stampOf ((days * 86400 - 2 ^ 32) / 86400) (ticks / 10000) 0 := by
      refine stampOf_eq ?_ t3 t4 t5 t6
      have e : ((days * 86400 % 2 ^ 32 : Nat) + (0 : Int)) / 86400 + (ticks / 10000 : Nat) / 86400 =
          (((days * 86400 - 2 ^ 32) / 86400 + ticks / 10000 / 86400 : Nat) : Int) := by omega
      rw [t2, e]
    rw [t1, hst]
  · have := calendar_inj h
    omega

/-- **C123** is false in other zones: the text reported denotes another instant; west of UTC it shows the day before. -/
theorem C123_zone_false (hprints : Signalk.Prints denv) {off : Int} (hz : Zone denv off) (hoff : off ≠ 0)
    (hlo : -86400 < off) (hhi : off < 86400)
    (hdec : Iface.Decoded (Nmea2k.shippedEnv conv) v p) (hpgn : v.pgn = 126992) {days ticks : Nat}
    (hsys : systemTime v.data = some (days, ticks)) (hdays : days ≤ 49710)
    {values : List (Str × Value Val)} (hr : Reports denv p values) :
    ∃ st : Stamp, textPart values = [(bs "system.currentTime", ascii (rfc3339 st 0))] ∧ st.off = off ∧
      st.instant ≠ (days * 86400 + ticks / 10000 : Nat) ∧
      (off < 0 → 1 ≤ days → st = stampOf (days - 1) (ticks / 10000) off) := by
  have hne : v.data ≠ [] := by intro h; rw [h] at hsys; simp [systemTime] at hsys
  have htext := time_text hprints hz hdec hpgn hne hr
  rw [hsys] at htext
  simp only at htext
  obtain ⟨st, t1, t2, t3, t4, t5, t6⟩ := htext
  refine ⟨st, t1, t6, ?_, fun hneg h1 => ?_⟩
  · have hd := (Signalk.dayNumber_civil (((days * 86400 % 2 ^ 32 : Nat) + off) / 86400 + (ticks / 10000 : Nat) / 86400)).1
    rw [← t2] at hd
    simp only at hd
    unfold Stamp.instant
    rw [hd, t3, t4, t5, t6]
    omega
  · refine stampOf_eq ?_ t3 t4 t5 t6
    rw [t2]
    congr 1
    omega

section
variable {sort : List String → List String} {opts : Opts} {out : Outputs} {verbose : Bool} {enc : Enc}

/-- **C123** (nothing is made up): whatever the interfaces receive, everything a client receives, at any moment of any schedule, is
a JSON text of a message made of something an interface received; if that is a system time message decoded from the bus, it
has the time of the message.  (Missing: as in `C123_delta_partial`.) -/
theorem C123_client_partial (hs : Sane enc) {parse : RawMessage → GoM Parsed}
    (hparse : ∀ m, Nmea2k.ParsePacket pgnList (Nmea2k.shippedEnv conv) m (parse m)) (hprints : Signalk.Prints denv)
    (hz : Zone denv 0)
    (mem : Nat → Nat → List Byte) (g : Nat → Nat) (fp : List Nat) (bus : List (Nat × Ev)) (inputs : Nat → Input)
    {es : List (SysEvent Body (List Byte))} (ho : Ordinary es)
    (hfeed : Feeds es (fun i => (inputs i).acts parse mem g fp bus i)) {s : Sys Body (List Byte)}
    (h : sysExec (shippedProgram sort opts out verbose denv (marshal enc)) Sys.init es = some (.ok s))
    {c : Hub.Id} (hc : Hub.Spec.registered c (wsTrace es)) {b : List Byte} (hb : b ∈ s.ws.got c) :
    ∃ i p values now j, (inputs i).Made (Nmea2k.shippedEnv conv) fp bus i p ∧ values ≠ [] ∧
      DeltaJson enc now p.header.pgn p.header.source values j ∧ (∀ j', Reads b j' ↔ j' = j) ∧
      ∀ v, Iface.Decoded (Nmea2k.shippedEnv conv) v p → v.pgn = 126992 → v.data ≠ [] →
        (∀ days ticks, systemTime v.data = some (days, ticks) → days ≤ 49710) → TimeShown v.data j := by
  obtain ⟨i, p, values, now, j, h1, h2, h3, h4, h5⟩ := C104_client hs hparse mem g fp bus inputs ho hfeed h hc hb
  exact ⟨i, p, values, now, j, h1, h3, h4, h5, fun v hdec hpgn hne hdate =>
    C123_delta_partial hprints hz hdec hpgn hne hdate h2 h4⟩

/-- **C123** (nothing is lost): when the interfaces have handed over all they make of what they received, and a client
connected since the first delta has kept up, then for every system time message with a date and a time decoded from the bus it
has received a JSON text with its source and its time.  (Missing: as in `C123_delta_partial`.) -/
theorem C123_complete_partial (hs : Sane enc) (hl : Local enc) {parse : RawMessage → GoM Parsed}
    (hparse : ∀ m, Nmea2k.ParsePacket pgnList (Nmea2k.shippedEnv conv) m (parse m)) (hprints : Signalk.Prints denv)
    (hz : Zone denv 0)
    (mem : Nat → Nat → List Byte) (g : Nat → Nat) (fp : List Nat) (bus : List (Nat × Ev)) (inputs : Nat → Input)
    {es : List (SysEvent Body (List Byte))} (hord : Ordinary es)
    (hall : ∀ i, (readBy i es).map parsedOf = Iface.handed ((inputs i).acts parse mem g fp bus i))
    (hperm : ∀ i, ∀ m ∈ readBy i es, m.body.order.Perm m.body.data) {s : Sys Body (List Byte)}
    (h : sysExec (shippedProgram sort opts out verbose denv (marshal enc)) Sys.init es = some (.ok s))
    (hp : ∀ i, s.pending i = none) (ht : s.todo = []) (hpc : s.ws.pc = .idle) (hw : out.websockets = true)
    {c : Hub.Id} (hc : Hub.Spec.registered c (wsTrace es)) (h0 : before c (wsTrace es) = 0)
    (hin : c ∈ s.ws.conns) (hbuf : (s.ws.chan c).buf = []) {n : Nat} {p : Parsed} {v : MsgView}
    (hpm : p ∈ Iface.handed ((inputs n).acts parse mem g fp bus n)) (hdec : Iface.Decoded (Nmea2k.shippedEnv conv) v p)
    (hpgn : v.pgn = 126992) {days ticks : Nat} (hsys : systemTime v.data = some (days, ticks)) (hdate : days ≤ 49710) :
    ∃ values now, ∃ b ∈ s.ws.got c, ∃ j, DeltaJson enc now v.pgn v.source values j ∧ TimeShown v.data j ∧
      ∀ j', Reads b j' ↔ j' = j := by
  have hne : v.data ≠ [] := by intro h; rw [h] at hsys; simp [systemTime] at hsys
  obtain ⟨values, hr, h2⟩ := reports_received hparse mem g fp bus inputs hord hall hperm h hp ht hpc hw hc h0 hin
    hbuf hpm hdec (fun values now hr hm => by
      obtain ⟨b, hb⟩ := C104_total hl hdec.2 hr now v.pgn v.source
      rw [hb] at hm; cases hm)
  have hvals : values ≠ [] := by
    rintro rfl
    have htext := time_text hprints hz hdec hpgn hne hr
    rw [hsys] at htext
    simp only at htext
    obtain ⟨st, t1, _⟩ := htext
    cases t1
  obtain ⟨now, b, hb, hm⟩ := h2 hvals
  obtain ⟨j, h3, h4⟩ := C104_delta hs hm
  refine ⟨values, now, b, hb, j, h3, C123_delta_partial hprints hz hdec hpgn hne (fun d t e => ?_) hr h3, h4⟩
  rw [hsys] at e
  cases e
  exact hdate

end

/-! ## A run -/

theorem calendar_of_civil {n : Nat} {y m d : Nat} (h : civil n = ((y : Int), (m : Int), (d : Int))) : calendar n = (y, m, d) := by
  rw [Signalk.civil_calendar] at h
  simp only [Prod.mk.injEq, Int.natCast_inj] at h
  exact Prod.ext h.1 (Prod.ext h.2.1 h.2.2)

/-- 4 July 2015, 12:34:56.7. -/
def clockData : List Byte := [1, 0xF0, 0xEC, 0x40, 0x58, 0xBA, 0xFF, 0x1A]

theorem clock_systemTime : systemTime clockData = some (16620, 452967000) := by decide +kernel

theorem clock_date : calendar 16620 = (2015, 7, 4) := calendar_of_civil (by decide +kernel)

/-- As an NGT-1 sends it. -/
def clockContent : List Byte := [0x93, 19, 3, 0x10, 0xF0, 0x01, 255, 8, 0, 0, 0, 0, 8] ++ clockData ++ [255]

def clockView : MsgView :=
  { priority := 3, pgn := 126992, source := 8, destination := 255, length := 8, data := clockData }

def clockRaw : RawMessage := ⟨3, 126992, 8, 255, 8, ⟨clockData, [255]⟩⟩

@[irreducible] def clockValues : Nmea2k.DataMap :=
  match Nmea2k.parsePacketN pgnList acTables clockRaw 20 with
  | some (.ok p) => p.data
  | _ => []

/-- Decoded; Go goes through the map backwards. -/
def clockMsg : Message Body := ⟨clockRaw, 70, clockValues, clockValues.reverse, 5⟩

theorem clockMsg_perm : clockMsg.body.order.Perm clockMsg.body.data := by
  unfold clockMsg
  exact List.reverse_perm clockValues

theorem clockMsg_parsed : Nmea2k.ParsePacket pgnList acTables clockRaw (.ok (parsedOf clockMsg)) := ⟨20, by decide +kernel⟩

/-- Interface 0 is an NGT-1 that receives the frame. -/
def clockInput (i : Nat) : Input := .ngt (if i = 0 then Actisense.stream (NgtSpec.wire clockContent) else [])

/-- A computer set to UTC. -/
def utcEnv : Signalk.Env Val where
  sprint := Signalk.refEnv.sprint
  isEmpty := Signalk.refEnv.isEmpty
  asTime v :=
    match v with
    | .unix s => some ⟨s, 0⟩
    | .clock h m s ns => some (Time.date 1970 1 1 ((3600 * h + 60 * m + s + ns / 10 ^ 9 : Nat) : Int) 0)
    | _ => none
  render st := ascii (rfc3339 st 0)

theorem utc_zone : Zone utcEnv 0 where
  date _ := by simp only [utcEnv]
  time _ _ _ _ := by simp only [utcEnv]
  render _ := by simp only [utcEnv]

theorem utc_prints : Signalk.Prints utcEnv := ⟨refEnv_prints.text, refEnv_prints.number, refEnv_prints.empty⟩

def clockProgram : Program Body (List Byte) :=
  shippedProgram (List.insertionSort (· ≤ ·)) Opts.default ⟨true, false⟩ true utcEnv (marshal exampleEnc)

/-- What client 5 receives. -/
def clockJson : List Byte :=
  match clockProgram.delta clockMsg with
  | .ok (some b) => b
  | _ => []

def clockRun : List (SysEvent Body (List Byte)) :=
  [.ws (.register 5), .read 0 (some clockMsg), .take 0, .act, .statistics [("126992", 1)] [], .st .hub,
    .delta clockJson [5], .ws .hub, .ws .hub, .ws (.read 5)]

theorem clockRun_reads (i : Nat) : readBy i clockRun = if i = 0 then [clockMsg] else [] := by
  by_cases h : 0 = i
  · subst h; rfl
  · have h' : i ≠ 0 := fun e => h e.symm
    simp [clockRun, readBy, h, h']

theorem clockRun_handed : Iface.handed ((clockInput 0).acts (Iface.someParse acTables) (fun _ _ => []) (fun _ => 0) [] [] 0) =
    [parsedOf clockMsg] := by
  have hp : Iface.someParse acTables clockRaw = .ok (parsedOf clockMsg) :=
    Nmea2k.ParsePacket_det (Iface.someParse_spec acTables clockRaw) clockMsg_parsed
  have hs : (Actisense.session (fun _ => 0) Actisense.RState.init
      (Actisense.stream (NgtSpec.wire clockContent))).1 = [.msg clockRaw] := by decide +kernel
  simp only [clockInput, Input.acts, if_true, Iface.actisenseActs, hs, Iface.actisenseLoop, hp]
  rfl

theorem clockRun_all : ∀ i, (readBy i clockRun).map parsedOf =
    Iface.handed ((clockInput i).acts (Iface.someParse acTables) (fun _ _ => []) (fun _ => 0) [] [] i) := by
  intro i
  rw [clockRun_reads]
  by_cases hi : i = 0
  · rw [if_pos hi, hi, clockRun_handed]; rfl
  · rw [if_neg hi]
    simp only [clockInput, Input.acts, if_neg hi]
    rfl

theorem clockRun_ordinary : Ordinary clockRun := by
  refine ⟨?_, ?_, ?_, ?_⟩
  · intro a b c h
    have e : wsTrace clockRun = .register 5 :: [.broadcast clockJson [5], .hub, .hub, .read 5] := rfl
    rw [e] at h
    cases a with
    | nil => simp [Hub.Spec.touched]
    | cons x a =>
      exfalso
      simp only [List.cons_append, List.cons.injEq] at h
      have : (Hub.Event.register c : Hub.Event (List Byte)) ∈ a ++ .register c :: b := by simp
      rw [← h.2] at this
      simp at this
  · intro a b c h
    exfalso
    have : (Hub.Event.register c : Hub.Event Counters) ∈ stTrace clockRun := by rw [h]; simp
    simp [stTrace, clockRun] at this
  · intro c hc
    simp [wsTrace, clockRun] at hc
  · intro c hc
    simp [stTrace, clockRun] at hc

/-- The run meets the hypotheses of `C123_complete_partial`: client 5 is told the time, and this is its text. -/
example : ∃ s, sysExec clockProgram Sys.init clockRun = some (.ok s) ∧
    (∃ values now, ∃ b ∈ s.ws.got 5, ∃ j, DeltaJson exampleEnc now 126992 8 values j ∧ TimeShown clockData j ∧
      ∀ j', Reads b j' ↔ j' = j) ∧
    rfc3339 (stampOf 16620 (452967000 / 10000) 0) 0 = "2015-07-04T12:34:56Z".toList := by
  have hx : (match sysExec clockProgram Sys.init clockRun with
    | some (.ok s) => (s.pending 0).isNone && decide (s.todo.length = 0) &&
        (match s.ws.pc with | .idle => true | _ => false) &&
        decide (5 ∈ s.ws.conns) && decide ((s.ws.chan 5).buf = [])
    | _ => false) = true := by decide +kernel
  cases hs : sysExec clockProgram Sys.init clockRun with
  | none => rw [hs] at hx; cases hx
  | some r =>
    cases r with
    | error e => rw [hs] at hx; cases hx
    | ok s =>
      rw [hs] at hx
      simp only [Bool.and_eq_true, decide_eq_true_eq, List.length_eq_zero_iff] at hx
      obtain ⟨⟨⟨⟨hp0, ht⟩, hpc⟩, hin⟩, hbuf⟩ := hx
      have hpc' : s.ws.pc = .idle := by revert hpc; cases s.ws.pc <;> simp
      have hperm : ∀ i, ∀ m ∈ readBy i clockRun, m.body.order.Perm m.body.data := by
        intro i m hm
        rw [clockRun_reads] at hm
        split at hm
        · rw [List.mem_singleton.mp hm]
          exact clockMsg_perm
        · cases hm
      have hp : ∀ i, s.pending i = none := by
        intro i
        by_cases hi : i = 0
        · subst hi; exact Option.isNone_iff_eq_none.mp hp0
        · have := C69_order hs i
          rw [clockRun_reads, if_neg hi] at this
          have := (List.append_eq_nil_iff.mp this).2
          revert this; cases s.pending i <;> simp
      have := C123_complete_partial (conv := fun _ => 0) example_sane example_local (Iface.someParse_spec acTables)
        utc_prints utc_zone (fun _ _ => []) (fun _ => 0) [] [] clockInput clockRun_ordinary clockRun_all hperm hs hp ht hpc' rfl
        (c := 5) (by simp [clockRun, wsTrace, Hub.Spec.registered]) (by rfl) hin hbuf
        (n := 0) (p := parsedOf clockMsg) (v := clockView) (by rw [clockRun_handed]; simp) ⟨rfl, clockMsg_parsed⟩ rfl
        clock_systemTime (by omega)
      refine ⟨s, rfl, this, ?_⟩
      unfold stampOf
      rw [show 16620 + 452967000 / 10000 / 86400 = 16620 from rfl, clock_date]
      decide +kernel

/-- Something is reported of every decoded message. -/
theorem reports_exist (denv : Signalk.Env Val) {env : Nmea2k.Env} {m : RawMessage} {p : Parsed}
    (hp : Nmea2k.ParsePacket pgnList env m (.ok p)) : ∃ values, Reports denv p values := by
  obtain ⟨r, hr⟩ := Signalk.C60_shipped denv hp
  obtain ⟨hnd, d, hd⟩ := genuine_facts (p := p) (Or.inl ⟨_, _, hp⟩)
  have hi : Signalk.shippedReps[(Signalk.toMsg p).index]? = some d.repeatingFields := by
    show Signalk.shippedReps[p.index]? = _
    unfold Signalk.shippedReps
    rw [List.getElem?_map, hd]; rfl
  obtain ⟨values, hrep, _⟩ := Signalk.C99_delta hr hnd hi
  exact ⟨values, d, p.data, hd, List.Perm.refl _, hrep⟩

/-- A computer in a zone five hours west of UTC. -/
def newYorkEnv : Signalk.Env Val :=
  { utcEnv with
    asTime := fun v =>
      match v with
      | .unix s => some ⟨s, -18000⟩
      | .clock h m s ns => some (Time.date 1970 1 1 ((3600 * h + 60 * m + s + ns / 10 ^ 9 : Nat) : Int) (-18000))
      | _ => none }

theorem newYork_zone : Zone newYorkEnv (-18000) where
  date _ := by simp only [newYorkEnv]
  time _ _ _ _ := by simp only [newYorkEnv]
  render _ := by simp only [newYorkEnv, utcEnv]

theorem newYork_prints : Signalk.Prints newYorkEnv := ⟨refEnv_prints.text, refEnv_prints.number, refEnv_prints.empty⟩

theorem clock_decoded : Iface.Decoded (Nmea2k.shippedEnv fun _ => 0) clockView (parsedOf clockMsg) := ⟨rfl, clockMsg_parsed⟩

theorem west_date : calendar (16620 - 1 + 452967000 / 10000 / 86400) = (2015, 7, 3) :=
  calendar_of_civil (n := 16620 - 1 + 452967000 / 10000 / 86400) (by decide +kernel)

/-- The same message read in New York: 3 July, in local time. -/
example : ∃ values, Reports newYorkEnv (parsedOf clockMsg) values ∧
    textPart values = [(bs "system.currentTime", ascii "2015-07-03T12:34:56-05:00".toList)] := by
  obtain ⟨values, hr⟩ := reports_exist newYorkEnv clockMsg_parsed
  obtain ⟨st, h1, _, _, h2⟩ := C123_zone_false newYork_prints newYork_zone (by decide) (by decide) (by decide)
    (v := clockView) (conv := fun _ => 0) clock_decoded rfl clock_systemTime (by omega) hr
  refine ⟨values, hr, ?_⟩
  rw [h1, h2 (by decide) (by omega)]
  unfold stampOf
  rw [west_date]
  decide +kernel

/-- 8 February 2106, 12:34:56.7. -/
def lateData : List Byte := [1, 0xF0, 0x2F, 0xC2, 0x58, 0xBA, 0xFF, 0x1A]

def lateRaw : RawMessage := ⟨3, 126992, 8, 255, 8, ⟨lateData, [255]⟩⟩

theorem late_parsed : ∃ p, p.header = lateRaw ∧ Nmea2k.ParsePacket pgnList acTables lateRaw (.ok p) := by
  have h : (match Nmea2k.parsePacketN pgnList acTables lateRaw 20 with
    | some (.ok p) => decide (p.header = lateRaw)
    | _ => false) = true := by decide +kernel
  split at h
  · rename_i p hp
    exact ⟨p, of_decide_eq_true h, 20, hp⟩
  · cases h

/-- It is reported as a time of 1970. -/
example : ∃ p values, Iface.Decoded acTables lateRaw.view p ∧ Reports utcEnv p values ∧ systemTime lateData = some (49711, 452967000) ∧
    calendar 49711 = (2106, 2, 8) ∧
    textPart values = [(bs "system.currentTime", ascii "1970-01-01T12:34:56Z".toList)] := by
  obtain ⟨p, h1, h2⟩ := late_parsed
  have hdec : Iface.Decoded acTables lateRaw.view p := ⟨by rw [h1], by rw [h1]; exact h2⟩
  obtain ⟨values, hr⟩ := reports_exist utcEnv h2
  have hsys : systemTime lateData = some (49711, 452967000) := by decide +kernel
  obtain ⟨h3, _⟩ := C123_wrap_false utc_prints utc_zone (conv := fun _ => 0) hdec rfl hsys (by omega) hr
  refine ⟨p, values, hdec, hr, hsys, calendar_of_civil (by decide +kernel), ?_⟩
  rw [h3]
  unfold stampOf
  rw [show (49711 * 86400 - 2 ^ 32) / 86400 + 452967000 / 10000 / 86400 = 0 by decide]
  decide +kernel

end Argo.Json
