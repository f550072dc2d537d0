import Verif.Iface.Start
import Verif.Signalk.Props2
import Verif.Nmea2k.Crash
import Verif.Nmea2k.Entries

set_option autoImplicit false

/-!
# From the wire to the hand-over (C90 NGT-1, C91 CANUSB)

Composition of the readers (C03, C07, C22, C27), the address conflict handling (C31) and the decoder
(C45, C46, C50).
-/

namespace Argo.Iface

open Argo
open Argo.Nmea2k (Pgn Parsed Val)
open Argo.Actisense (reads stream Quiet)
open Argo.NgtSpec (Seen wire verdict accepted)

/-! ## Specification -/

/-- What an interface does with the results of successive Reads: a message is decoded (relation `P` between
a raw message and the decoder's outcome) and handed over, an error is logged, a panic ends it all. -/
inductive Handover (P : RawMessage → GoM Parsed → Prop) : List Seen → List Act → Prop where
  | nil : Handover P [] []
  | ioErr {os as} : Handover P os as → Handover P (.ioErr :: os) (.warned :: as)
  | crash {os} : Handover P (.crash :: os) [.died]
  | msg {v os as raw p} : raw.view = v → P raw (.ok p) → Handover P os as →
      Handover P (.msg v :: os) (.handed p :: as)
  | died {v os raw e} : raw.view = v → P raw (.error e) → Handover P (.msg v :: os) [.died]

/-- A content the decoder dies of: PGN 130842 with a message id other than 0 and 1, or a length-prefixed string
whose length leads past byte 255. -/
def Deadly (v : MsgView) : Prop :=
  (v.pgn = 130842 ∧ 3 ≤ v.data.length ∧ 2 ≤ Nmea2k.Spec.bitsAt v.data 16 6) ∨
  Nmea2k.Spec.overlong Nmea2k.Table.pgnList v.pgn v.data

/-- A content the decoder does not die of, nor of an address claim of no or six bytes (which it does or does not,
depending on the room behind the data in memory). -/
def Harmless (v : MsgView) : Prop :=
  ¬ Deadly v ∧ (v.pgn = 60928 → v.data.length ≠ 0 ∧ v.data.length ≠ 6)

/-- A message decoded with the shipped table from a message with this content. -/
def Decoded (env : Nmea2k.Env) (v : MsgView) (p : Parsed) : Prop :=
  p.header.view = v ∧ Nmea2k.ParsePacket Nmea2k.Table.pgnList env p.header (.ok p)

/-! ## The decoder -/

theorem overlong_pgns {pgn : Nat} {data : List Byte} (h : Nmea2k.Spec.overlong Nmea2k.Table.pgnList pgn data) :
    pgn ∈ [130816, 130820, 130847, 262211, 262212, 262213] := by
  obtain ⟨t, d, k, f, l, ⟨i, j, hdef, hch⟩, hd, hk, hres, _⟩ := h
  have hp : d.pgn = pgn := by
    rcases hch with ⟨rfl, rfl⟩ | ⟨hlt, htj, N, hN⟩
    · exact (hdef.2.2 t d hd).mpr ⟨Nat.le_refl _, Nat.le_refl _⟩
    · have := (Nmea2k.sel_bounds (tbl := Nmea2k.Table.pgnList) (data := data) (Nat.le_of_lt hlt) N).1
      rw [hN N (Nat.le_refl _)] at this
      exact (hdef.2.2 t d hd).mpr ⟨this, htj⟩
  rw [← hp]
  refine Nmea2k.C46_lz_pgns d (List.mem_of_getElem? hd) ?_
  cases hn : Nmea2k.noLZ d with
  | false => rfl
  | true => exact absurd hres (Nmea2k.noLZ_spec hn hk)

/-- **C98** (messages): the decoder dies of a message with this content, whatever is behind its data in memory,
exactly if it is deadly, -/
theorem C98_deadly (env : Nmea2k.Env) (v : MsgView) :
    Deadly v ↔ ∀ raw : RawMessage, raw.view = v → ∃ e, Nmea2k.ParsePacket Nmea2k.Table.pgnList env raw (.error e) := by
  constructor
  · rintro h raw rfl
    rw [Nmea2k.C46_exact]
    rcases h with h | h
    · exact Or.inl h
    · exact Or.inr (Or.inr ⟨overlong_pgns h, h⟩)
  · intro h
    obtain ⟨e, he⟩ := h ⟨v.priority, v.pgn, v.source, v.destination, v.length, ⟨v.data, List.replicate 7 0⟩⟩ rfl
    rcases (Nmea2k.C46_exact env _).mp ⟨e, he⟩ with h | ⟨_, _, h⟩ | ⟨_, h⟩
    · exact Or.inl h
    · simp [Slice.cap] at h
    · exact Or.inr h

/-- and lives through it, whatever is behind its data in memory, exactly if it is harmless. -/
theorem C98_harmless (env : Nmea2k.Env) (v : MsgView) :
    Harmless v ↔ ∀ raw : RawMessage, raw.view = v → ∃ p, Nmea2k.ParsePacket Nmea2k.Table.pgnList env raw (.ok p) := by
  constructor
  · rintro ⟨h1, h2⟩ raw rfl
    obtain ⟨r, hr⟩ := Nmea2k.C45_terminates env raw
    cases r with
    | ok p => exact ⟨p, hr⟩
    | error e =>
      exfalso
      rcases (Nmea2k.C46_exact env raw).mp ⟨e, hr⟩ with h | ⟨h3, h4, _⟩ | ⟨_, h⟩
      · exact h1 (Or.inl h)
      · rcases h4 with h4 | h4
        · exact (h2 h3).1 h4
        · exact (h2 h3).2 h4
      · exact h1 (Or.inr h)
  · intro h
    constructor
    · intro hd
      obtain ⟨p, hp⟩ := h ⟨v.priority, v.pgn, v.source, v.destination, v.length, ⟨v.data, []⟩⟩ rfl
      obtain ⟨e, he⟩ := (C98_deadly env v).mp hd _ (rfl : RawMessage.view ⟨v.priority, v.pgn, v.source, v.destination, v.length, ⟨v.data, []⟩⟩ = v)
      cases Nmea2k.ParsePacket_det hp he
    · intro h60
      obtain ⟨p, hp⟩ := h ⟨v.priority, v.pgn, v.source, v.destination, v.length, ⟨v.data, []⟩⟩ rfl
      have : ¬ (v.data.length = 0 ∨ v.data.length = 6) := by
        intro hl
        obtain ⟨e, he⟩ := (Nmea2k.C46_exact env ⟨v.priority, v.pgn, v.source, v.destination, v.length, ⟨v.data, []⟩⟩).mpr
          (Or.inr (Or.inl ⟨h60, hl, by simp only [Slice.cap]; simp; omega⟩))
        cases Nmea2k.ParsePacket_det hp he
      omega

theorem harmless_ok {env : Nmea2k.Env} {v : MsgView} (h : Harmless v) {raw : RawMessage}
    (hv : raw.view = v) {r : GoM Parsed} (hp : Nmea2k.ParsePacket Nmea2k.Table.pgnList env raw r) :
    ∃ p, r = .ok p ∧ Decoded env v p := by
  obtain ⟨p, hp'⟩ := (C98_harmless env v).mp h raw hv
  cases Nmea2k.ParsePacket_det hp hp'
  have hh := Signalk.parsed_header hp
  exact ⟨p, rfl, by rw [hh]; exact hv, by rw [hh]; exact hp⟩

/-- Messages of all PGNs but eight are harmless, whatever their data. -/
theorem C90_harmless {v : MsgView}
    (h : v.pgn ∉ [60928, 130842, 130816, 130820, 130847, 262211, 262212, 262213]) : Harmless v := by
  simp only [List.mem_cons, List.not_mem_nil, or_false, not_or] at h
  refine ⟨?_, fun t => absurd t h.1⟩
  rintro (⟨t, _⟩ | t)
  · exact h.2.1 t
  · have := overlong_pgns t
    simp only [List.mem_cons, List.not_mem_nil, or_false] at this
    omega

/-- The relation is not empty: the decoder always has an outcome. -/
noncomputable def someParse (env : Nmea2k.Env) (m : RawMessage) : GoM Parsed := (Nmea2k.C45_terminates env m).choose

theorem someParse_spec (env : Nmea2k.Env) (m : RawMessage) :
    Nmea2k.ParsePacket Nmea2k.Table.pgnList env m (someParse env m) := (Nmea2k.C45_terminates env m).choose_spec

/-- Messages the decoder cannot panic on, all handed over. -/
theorem handover_harmless {env : Nmea2k.Env} {vs : List MsgView} (hv : ∀ v ∈ vs, Harmless v) {as : List Act}
    (h : Handover (Nmea2k.ParsePacket Nmea2k.Table.pgnList env) (vs.map Seen.msg) as) :
    ∃ ps, as = ps.map Act.handed ∧ List.Forall₂ (Decoded env) vs ps := by
  induction vs generalizing as with
  | nil => cases h; exact ⟨[], rfl, List.Forall₂.nil⟩
  | cons v vs ih =>
    rw [List.map_cons] at h
    cases h with
    | msg h1 h2 h3 =>
      obtain ⟨ps, e1, e2⟩ := ih (fun w hw => hv w (by simp [hw])) h3
      obtain ⟨q, hq, hd⟩ := harmless_ok (hv v (by simp)) h1 h2
      cases hq
      exact ⟨_ :: ps, by rw [e1]; rfl, List.Forall₂.cons hd e2⟩
    | died h1 h2 =>
      obtain ⟨q, hq, _⟩ := harmless_ok (hv v (by simp)) h1 h2
      cases hq

/-- The field values of a decoded message, for a PGN with one definition without repeating fields. -/
theorem C90_values {env : Nmea2k.Env} {v : MsgView} {p : Parsed} (h : Decoded env v p) {i : Nat} {d : Pgn}
    (ho : Nmea2k.Spec.onlyDefinition Nmea2k.Table.pgnList v.pgn i d) (h60928 : v.pgn ≠ 60928)
    (hrep : d.repeatingFields = 0)
    (hlz : ∀ k f, d.fieldList[k]? = some f → f.res = .stringLZ →
      Nmea2k.lzSafe v.data (Nmea2k.Spec.position d.fieldList k / 8))
    (hlen : Nmea2k.Spec.position d.fieldList d.fieldList.length ≤ 8 * v.data.length) :
    p.index = i ∧ p.header.priority = v.priority ∧ p.header.pgn = v.pgn ∧ p.header.source = v.source ∧
      p.header.destination = v.destination ∧
      p.data.map Prod.fst = List.range d.fieldList.length ∧
      ∀ k f, d.fieldList[k]? = some f →
        p.data.get k = (Nmea2k.Spec.fieldValue env v.data f (Nmea2k.Spec.position d.fieldList k)).getD .nil := by
  obtain ⟨hv, hp⟩ := h
  subst hv
  obtain ⟨q, h1, _, h3, h4, h5⟩ := Nmea2k.C50_shipped env p.header ho h60928 hrep hlz hlen
  have := Nmea2k.ParsePacket_det hp h1
  cases this
  exact ⟨h3, rfl, rfl, rfl, rfl, h4, h5⟩

/-! ## C90: NGT-1 -/

/-- What an NGT-1 interface does is determined by what its Reads return, decoded one by one. -/
theorem C90_handover {P : RawMessage → GoM Parsed → Prop} {parse : RawMessage → GoM Parsed}
    (hparse : ∀ m, P m (parse m)) (g : Nat → Nat) (evs : List Ev) :
    Handover P (reads g evs) (actisenseActs parse g evs) := by
  unfold actisenseActs Actisense.reads
  generalize (Actisense.session g Actisense.RState.init evs).1 = os
  induction os with
  | nil => exact Handover.nil
  | cons o os ih =>
    cases o with
    | ioErr => exact Handover.ioErr ih
    | crash e => exact Handover.crash
    | msg m =>
      have hm := hparse m
      simp only [List.map_cons, actisenseLoop, Actisense.Obs.seen]
      cases hr : parse m with
      | ok r => rw [hr] at hm; exact Handover.msg rfl hm ih
      | error e => rw [hr] at hm; exact Handover.died rfl hm

/-- **C90.** From any sequence of well-formed NGT-1 frames separated by quiet periods, the interface hands
over exactly the messages of the acceptable frames, decoded, in order and each once, and does nothing
else, provided no frame has a length that overruns and no message is one the decoder panics on. -/
theorem C90_ngt_partial {env : Nmea2k.Env} {parse : RawMessage → GoM Parsed}
    (hparse : ∀ m, Nmea2k.ParsePacket Nmea2k.Table.pgnList env m (parse m)) (g : Nat → Nat)
    (fs : List (List Ev × List Byte)) (hq : ∀ f ∈ fs, Quiet f.1)
    (hv : ∀ f ∈ fs, verdict f.2 ≠ .crash ∧ verdict f.2 ≠ .overrun)
    (hh : ∀ f ∈ fs, ∀ v, accepted f.2 = some v → Harmless v) :
    ∃ ps, actisenseActs parse g (fs.flatMap (fun f => f.1 ++ stream (wire f.2))) = ps.map Act.handed ∧
      List.Forall₂ (Decoded env) (fs.filterMap (fun f => accepted f.2)) ps := by
  have h := C90_handover hparse g (fs.flatMap (fun f => f.1 ++ stream (wire f.2)))
  have h0 := Actisense.C03_all_frames g fs [] hq hv
  rw [List.append_nil, show reads g [] = [] from rfl, List.append_nil] at h0
  have e : fs.filterMap (fun f => (accepted f.2).map Seen.msg) =
      (fs.filterMap (fun f => accepted f.2)).map Seen.msg := by
    rw [List.map_filterMap]
  rw [h0, e] at h
  refine handover_harmless ?_ h
  intro v hm
  obtain ⟨f, hf, hf'⟩ := List.mem_filterMap.mp hm
  exact hh f hf v hf'

/-- An interface dies only if Read crashed or the decoder did. -/
theorem handover_died {env : Nmea2k.Env} {os : List Seen} {as : List Act}
    (hh : Handover (Nmea2k.ParsePacket Nmea2k.Table.pgnList env) os as) : Act.died ∈ as →
    Seen.crash ∈ os ∨ ∃ v, Seen.msg v ∈ os ∧ ¬ Harmless v := by
  induction hh with
  | nil => intro h; cases h
  | ioErr _ ih =>
    intro h
    rcases List.mem_cons.mp h with h | h
    · cases h
    · rcases ih h with t | ⟨v, t, u⟩
      · exact Or.inl (by simp [t])
      · exact Or.inr ⟨v, by simp [t], u⟩
  | crash => intro _; exact Or.inl (by simp)
  | msg _ _ _ ih =>
    intro h
    rcases List.mem_cons.mp h with h | h
    · cases h
    · rcases ih h with t | ⟨v, t, u⟩
      · exact Or.inl (by simp [t])
      · exact Or.inr ⟨v, by simp [t], u⟩
  | @died v os raw e h1 h2 =>
    intro _
    refine Or.inr ⟨v, by simp, fun hv => ?_⟩
    obtain ⟨q, hq, _⟩ := harmless_ok hv h1 h2
    cases hq

/-- **C90** (any bytes): on an arbitrary byte stream the process dies only through a frame whose declared
length is beyond the frame, or through a message that is not harmless. -/
theorem C90_died {env : Nmea2k.Env} {parse : RawMessage → GoM Parsed}
    (hparse : ∀ m, Nmea2k.ParsePacket Nmea2k.Table.pgnList env m (parse m)) (g : Nat → Nat) (bs : List Byte)
    (h : Act.died ∈ actisenseActs parse g (stream bs)) :
    (∃ c ∈ NgtSpec.frames bs, Actisense.Crashing c ∨ Actisense.Overrunning c) ∨
    ∃ v, Seen.msg v ∈ reads g (stream bs) ∧ ¬ Harmless v := by
  have hh := C90_handover hparse g (stream bs)
  rcases handover_died hh h with t | t
  · exact Or.inl ((Actisense.C07_partial g bs).1 t)
  · exact Or.inr t

theorem ngtLoop_append (parse : RawMessage → GoM Parsed) (a b : List Actisense.Obs)
    (h : Act.died ∉ actisenseLoop parse a) :
    actisenseLoop parse (a ++ b) = actisenseLoop parse a ++ actisenseLoop parse b := by
  induction a with
  | nil => rfl
  | cons o a ih =>
    cases o with
    | ioErr =>
      simp only [actisenseLoop, List.mem_cons, not_or] at h
      simp only [List.cons_append, actisenseLoop, ih h.2]
    | crash e => simp [actisenseLoop] at h
    | msg m =>
      simp only [actisenseLoop, List.cons_append] at h ⊢
      cases hr : parse m with
      | error e => rw [hr] at h; simp at h
      | ok r =>
        rw [hr] at h
        simp only [List.mem_cons, not_or] at h
        simp only [ih h.2, List.cons_append]

theorem ngtLoop_crash (parse : RawMessage → GoM Parsed) (a : List Actisense.Obs)
    (h : Seen.crash ∈ a.map Actisense.Obs.seen) : Act.died ∈ actisenseLoop parse a := by
  induction a with
  | nil => simp at h
  | cons o a ih =>
    cases o with
    | ioErr =>
      simp only [actisenseLoop, List.mem_cons]
      exact Or.inr (ih (by simpa [Actisense.Obs.seen] using h))
    | crash e => simp [actisenseLoop]
    | msg m =>
      simp only [actisenseLoop]
      cases hr : parse m with
      | error e => simp
      | ok r =>
        simp only [List.mem_cons]
        exact Or.inr (ih (by simpa [Actisense.Obs.seen] using h))

/-- **C90** (errors): a failed read is logged, and the interface goes on with what follows as if it had
just started. -/
theorem C90_error (parse : RawMessage → GoM Parsed) (g : Nat → Nat) (before after : List Ev)
    (h : Act.died ∉ actisenseActs parse g before) :
    actisenseActs parse g (before ++ .fail :: after) =
      actisenseActs parse g before ++ .warned :: actisenseActs parse g after := by
  unfold actisenseActs at *
  rw [Actisense.session_append]
  cases hs : (Actisense.session g Actisense.RState.init before).2 with
  | none => exact absurd (ngtLoop_crash parse _ (Actisense.session_none_crash g _ _ hs)) h
  | some s' =>
    simp only [Actisense.session]
    rw [ngtLoop_append _ _ _ h]
    rfl

/-- The full claim is false: seven bytes from the adapter end the process. -/
theorem C90_false (parse : RawMessage → GoM Parsed) :
    actisenseActs parse (fun _ => 0) (stream [0x10, 0x02, 0x93, 0x0B, 0x62, 0x10, 0x03]) = [.died] := by
  rfl

/-- Non-vacuity: after some noise, a vessel heading (PGN 127250) among two ignored frames is handed over
with the values of its fields. -/
example (env : Nmea2k.Env) : ∃ p,
    actisenseActs (someParse env) (fun _ => 0) (stream [0x55] ++ stream (wire [1, 2]) ++
      stream (wire Actisense.sampleContent) ++ stream (wire [0x93, 0, 0])) = [.handed p] ∧
    p.index = 77 ∧ p.header.source = 1 ∧ p.header.priority = 2 ∧
    p.data.get 1 = .f64 0x0302 (.scale "RES_DEGREES") := by
  obtain ⟨ps, h1, h2⟩ := C90_ngt_partial (someParse_spec env) (fun _ => 0)
    [([.byte 0x55], [1, 2]), ([], Actisense.sampleContent), ([], [0x93, 0, 0])]
    (by
      intro f hf
      simp only [List.mem_cons, List.not_mem_nil, or_false] at hf
      rcases hf with rfl | rfl | rfl <;> intro e he
      · simp only [List.mem_singleton] at he; exact Or.inr ⟨0x55, he, by decide⟩
      · cases he
      · cases he)
    (by decide)
    (by
      intro f hf v hv
      simp only [List.mem_cons, List.not_mem_nil, or_false] at hf
      rcases hf with rfl | rfl | rfl
      · rw [show accepted (([.byte 0x55] : List Ev), ([1, 2] : List Byte)).2 = none from by decide] at hv; cases hv
      · have : v = Actisense.sampleView := by
          rw [show accepted Actisense.sampleContent = some Actisense.sampleView from by decide] at hv
          exact (Option.some.inj hv).symm
        subst this
        exact C90_harmless (by decide)
      · rw [show accepted (([] : List Ev), ([0x93, 0, 0] : List Byte)).2 = none from by decide] at hv; cases hv)
  have e : [(([.byte 0x55] : List Ev), [1, 2]), ([], Actisense.sampleContent), ([], [0x93, 0, 0])].filterMap
      (fun f => accepted f.2) = [Actisense.sampleView] := by decide
  rw [e] at h2
  cases h2 with
  | cons a b =>
    cases b
    have hv := C90_values (i := 77) (d := Nmea2k.Table.p77) a
      (Nmea2k.onlyB_spec (d := Nmea2k.Table.p77) (by decide +kernel) (by decide +kernel)) (by decide) rfl
      (by
        intro k f hf hres
        exact absurd hres (Nmea2k.noLZ_spec (d := Nmea2k.Table.p77) (by decide +kernel) hf))
      (by decide +kernel)
    refine ⟨_, ?_, hv.1, hv.2.2.2.1, hv.2.1, ?_⟩
    · refine Eq.trans ?_ h1; rfl
    · rw [hv.2.2.2.2.2.2 1 _ rfl]
      rfl

/-! ## C91: CANUSB -/

/-- What the caller of Read sees. -/
def seen : Canusb.Obs → Seen
  | .msg v => .msg v
  | .ioErr => .ioErr
  | .crash => .crash

/-- Everything the loop does besides claiming addresses. -/
def others (as : List Act) : List Act :=
  as.filter (fun a => match a with | .claimed _ => false | _ => true)

/-- The addresses claimed. -/
def claims (as : List Act) : List Byte :=
  as.filterMap (fun a => match a with | .claimed b => some b | _ => none)

/-- The messages among the results of Read. -/
def messages (os : List Canusb.Obs) : List MsgView :=
  os.filterMap (fun o => match o with | .msg v => some v | _ => none)

theorem rawOf_view (v : MsgView) (mem : List Byte) : (rawOf v mem).view = v := rfl

/-- What a CANUSB interface does, apart from claiming addresses, is determined by what its Reads return. -/
theorem C91_handover {P : RawMessage → GoM Parsed → Prop} {parse : RawMessage → GoM Parsed}
    (hparse : ∀ m, P m (parse m)) (mem : Nat → List Byte) (k : Nat) (p : Canusb.CanPort)
    (os : List Canusb.Obs) :
    Handover P (os.map seen) (others (canusbLoop parse mem k p os).1) := by
  induction os generalizing k p with
  | nil => exact Handover.nil
  | cons o os ih =>
    cases o with
    | ioErr => exact Handover.ioErr (ih k p)
    | crash => exact Handover.crash
    | msg v =>
      have hm := hparse (rawOf v (mem k))
      obtain ⟨q, _, hq, _⟩ := Canusb.C31_conflicts [v] p
      have hq' : Canusb.conflictStep p v = .ok q := by
        simp only [Canusb.conflictLoop, bind, Except.bind] at hq
        cases hc : Canusb.conflictStep p v with
        | error e => rw [hc] at hq; cases hq
        | ok q' => rw [hc] at hq; exact hq
      simp only [canusbLoop, hq', List.map_cons, seen]
      cases hr : parse (rawOf v (mem k)) with
      | error e =>
        rw [hr] at hm
        have : others ((if (v.pgn == 60928 && v.source == p.a) = true then [Act.claimed q.a] else []) ++ [Act.died])
            = [.died] := by split <;> rfl
        simp only [this]
        exact Handover.died rfl hm
      | ok r =>
        rw [hr] at hm
        have : ∀ as, others ((if (v.pgn == 60928 && v.source == p.a) = true then [Act.claimed q.a] else []) ++
            Act.handed r :: as) = .handed r :: others as := by intro as; split <;> rfl
        simp only [this]
        exact Handover.msg rfl hm (ih _ _)

/-- **C91** (addresses): unless the process dies, the interface answers exactly the claims of its current
address, each by claiming the next one: it claims a+1, a+2, ... in order, one claim line each, and ends
at the last one. -/
theorem C91_addresses {parse : RawMessage → GoM Parsed} (mem : Nat → List Byte) (k : Nat) (p : Canusb.CanPort)
    (os : List Canusb.Obs) (h : Act.died ∉ (canusbLoop parse mem k p os).1) :
    let n := Canusb.conflicts p.a (messages os)
    claims (canusbLoop parse mem k p os).1 = (List.range n).map (fun i => p.a + UInt8.ofNat (i + 1)) ∧
    (canusbLoop parse mem k p os).2.a = p.a + UInt8.ofNat n ∧
    ∃ texts : List (List Byte), (canusbLoop parse mem k p os).2.port.log = p.port.log ++ texts.map (· ++ [13]) ∧
      texts.length = n ∧ ∀ i text, texts[i]? = some text → ∀ ts sp, ts.length = 4 →
        Canusb.parsed ⟨text ++ ts, sp⟩ = .frame (Canusb.claimFrom (p.a + UInt8.ofNat (i + 1))) := by
  have key : claims (canusbLoop parse mem k p os).1 =
        (List.range (Canusb.conflicts p.a (messages os))).map (fun i => p.a + UInt8.ofNat (i + 1)) ∧
      Canusb.conflictLoop p (messages os) = .ok (canusbLoop parse mem k p os).2 := by
    induction os generalizing k p with
    | nil => exact ⟨rfl, rfl⟩
    | cons o os ih =>
      cases o with
      | ioErr =>
        simp only [canusbLoop, List.mem_cons, not_or] at h
        exact ih k p h.2
      | crash => simp [canusbLoop] at h
      | msg v =>
        obtain ⟨q, _, hq, hqa, _⟩ := Canusb.C31_conflicts [v] p
        have hq' : Canusb.conflictStep p v = .ok q := by
          simp only [Canusb.conflictLoop, bind, Except.bind] at hq
          cases hc : Canusb.conflictStep p v with
          | error e => rw [hc] at hq; cases hq
          | ok q' => rw [hc] at hq; exact hq
        simp only [canusbLoop, hq'] at h ⊢
        cases hr : parse (rawOf v (mem k)) with
        | error e => rw [hr] at h; simp at h
        | ok r =>
          rw [hr] at h
          simp only [List.mem_append, List.mem_cons, not_or] at h
          obtain ⟨i1, i2⟩ := ih (k + 1) q h.2.2
          have hm : messages (.msg v :: os) = v :: messages os := rfl
          rw [hm]
          simp only [Canusb.conflictLoop, hq', bind, Except.bind]
          refine ⟨?_, i2⟩
          by_cases hc : v.pgn = 60928 ∧ v.source = p.a
          · have hcb : (v.pgn == 60928 && v.source == p.a) = true := by simp [hc.1, hc.2]
            have hqa' : q.a = p.a + 1 := by
              rw [hqa]; simp only [Canusb.conflicts, if_pos hc]; rfl
            rw [hqa'] at i1
            simp only [hcb, if_true, hqa', Canusb.conflicts, if_pos hc]
            rw [Nat.add_comm 1, List.range_succ_eq_map, List.map_cons, List.map_map]
            have e1 : claims ([Act.claimed (p.a + 1)] ++ Act.handed r :: (canusbLoop parse mem (k + 1) q os).1) =
                (p.a + 1) :: claims (canusbLoop parse mem (k + 1) q os).1 := rfl
            rw [e1, i1]
            have hoff : ∀ n, p.a + 1 + UInt8.ofNat n = p.a + UInt8.ofNat (n + 1) := by
              intro n
              rw [Nat.add_comm n, UInt8.ofNat_add, UInt8.add_assoc]; rfl
            congr 1
            apply List.map_congr_left
            intro i _
            exact hoff (i + 1)
          · have hcb : (v.pgn == 60928 && v.source == p.a) = false := by
              rw [Bool.eq_false_iff]; intro h; simp at h; exact hc h
            have hqa' : q.a = p.a := by
              rw [hqa]; simp [Canusb.conflicts, if_neg hc]
            rw [hqa'] at i1
            simp only [hcb, Bool.false_eq_true, if_false, Canusb.conflicts, if_neg hc, List.nil_append]
            exact i1
  obtain ⟨q, texts, h1, h2, _, h4, h5, h6⟩ := Canusb.C31_conflicts (messages os) p
  rw [key.2] at h1
  cases h1
  exact ⟨key.1, h2, texts, h4, h5, h6⟩

theorem messages_map (vs : List MsgView) : messages (vs.map Canusb.Obs.msg) = vs := by
  induction vs with
  | nil => rfl
  | cons v vs ih =>
    show v :: messages (vs.map Canusb.Obs.msg) = _
    rw [ih]

theorem died_others {as : List Act} : Act.died ∈ others as ↔ Act.died ∈ as := by
  unfold others; rw [List.mem_filter]; simp

/-- **C91.** From any sequence of complete lines, whatever was received before, the interface hands over
exactly the messages that the lines deliver (single frames, and fast packets with their last frame),
decoded, in order and each once; besides that it only claims addresses: one for every received claim of
its current address.  (Partial: no line may crash the reader, see C16, and no message the decoder.) -/
theorem C91_canusb_partial {env : Nmea2k.Env} {parse : RawMessage → GoM Parsed}
    (hparse : ∀ m, Nmea2k.ParsePacket Nmea2k.Table.pgnList env m (parse m)) (mem : Nat → List Byte)
    (g : Nat → Nat) (fp : List Nat) (m : Canusb.Partials) (p : Canusb.CanPort) (lines : List (List Byte))
    (hl : ∀ l ∈ lines, Canusb.IsLine l) {outs : List (Option MsgView)} {m' : Canusb.Partials}
    (hr : Canusb.receive fp m (lines.map (Canusb.grown g)) = .ok (outs, m'))
    (hh : ∀ v, some v ∈ outs → Harmless v) :
    let r := canusbActs parse mem g fp m p ((lines.flatMap fun l => l ++ [13]).map Ev.byte)
    (∃ ps, others r.1 = ps.map Act.handed ∧ List.Forall₂ (Decoded env) (outs.filterMap id) ps) ∧
    claims r.1 = (List.range (Canusb.conflicts p.a (outs.filterMap id))).map (fun i => p.a + UInt8.ofNat (i + 1)) ∧
    r.2.a = p.a + UInt8.ofNat (Canusb.conflicts p.a (outs.filterMap id)) := by
  obtain ⟨s', hs⟩ := Canusb.C27_session g fp lines hl Canusb.RState.init m outs m' hr
  simp only [canusbActs, hs]
  have h := C91_handover hparse mem 0 p ((outs.filterMap id).map Canusb.Obs.msg)
  rw [List.map_map] at h
  have hh' : ∀ v ∈ outs.filterMap id, Harmless v := by
    intro v hv
    obtain ⟨o, ho, ho'⟩ := List.mem_filterMap.mp hv
    exact hh v (by rw [id] at ho'; rw [← ho']; exact ho)
  obtain ⟨ps, h1, h2⟩ := handover_harmless hh' h
  have hnd : Act.died ∉ (canusbLoop parse mem 0 p ((outs.filterMap id).map Canusb.Obs.msg)).1 := by
    rw [← died_others, h1]; simp
  have ha := C91_addresses mem 0 p _ hnd
  rw [messages_map] at ha
  exact ⟨⟨ps, h1, h2⟩, ha.1, ha.2.1⟩

/-- **C91** (fast packets): the frames of a fast packet of a registered PGN, sent as NMEA 2000 prescribes
and received in order, whatever was received before, give one decoded message with the whole payload. -/
theorem C91_fast_packet_partial {env : Nmea2k.Env} {parse : RawMessage → GoM Parsed}
    (hparse : ∀ m, Nmea2k.ParsePacket Nmea2k.Table.pgnList env m (parse m)) (mem : Nat → List Byte)
    (g : Nat → Nat) (fp : List Nat) (m : Canusb.Partials) (p : Canusb.CanPort) (lines : List (List Byte))
    (hl : ∀ l ∈ lines, Canusb.IsLine l) (hdr : MsgView) (group : Nat) (payload pad : List Byte)
    (hlen : payload.length ≤ 223) (hfast : Canusb.isFastPacket fp hdr.pgn = true)
    (hp : Canusb.Parses (lines.map (Canusb.grown g))
      ((CanSpec.padLast pad (CanSpec.fastFields 7 group payload)).map (Canusb.withField hdr)))
    (hh : Harmless { hdr with length := UInt8.ofNat payload.length, data := payload ++ pad }) :
    ∃ q, others (canusbActs parse mem g fp m p ((lines.flatMap fun l => l ++ [13]).map Ev.byte)).1 = [.handed q] ∧
      Decoded env { hdr with length := UInt8.ofNat payload.length, data := payload ++ pad } q := by
  have hr := Canusb.C22_standard fp m hdr group payload pad _ hlen hfast hp
  have hf : ∀ n, (List.replicate n (none : Option MsgView) ++
      [some { hdr with length := UInt8.ofNat payload.length, data := payload ++ pad }]).filterMap id =
      [{ hdr with length := UInt8.ofNat payload.length, data := payload ++ pad }] := by
    intro n
    rw [List.filterMap_append]
    have : (List.replicate n (none : Option MsgView)).filterMap id = [] := by
      rw [List.filterMap_eq_nil_iff]; intro a ha; rw [List.eq_of_mem_replicate ha]; rfl
    rw [this]; rfl
  obtain ⟨⟨ps, h1, h2⟩, _⟩ := C91_canusb_partial hparse mem g fp m p lines hl hr (by
    intro v hv
    rcases List.mem_append.mp hv with hv | hv
    · exact absurd (List.eq_of_mem_replicate hv) (by simp)
    · simp only [List.mem_singleton, Option.some.injEq] at hv; rw [hv]; exact hh)
  rw [hf] at h2
  cases h2 with
  | cons a b =>
    cases b
    exact ⟨_, h1, a⟩

/-- Non-vacuity: a GNSS position (PGN 129029) of three frames, with the registry made from the shipped
table, whatever partial messages there were before. -/
example (env : Nmea2k.Env) (mem : Nat → List Byte) (m : Canusb.Partials) (p : Canusb.CanPort) : ∃ q,
    others (canusbActs (someParse env) mem (fun _ => 0) (addFastPackets Nmea2k.Table.pgnList []) m p
      (((Canusb.sampleFields.map fun d => Canusb.bodyText 0x0D 0xF8 0x05 5 d ++ [48, 48, 48, 48]).flatMap
        fun l => l ++ [13]).map Ev.byte)).1 = [.handed q] ∧
    q.header.pgn = 129029 ∧ q.header.source = 5 ∧ q.header.data.vis = Canusb.samplePayload ++ [0xFF, 0xFF] := by
  obtain ⟨q, h1, h2, _⟩ := C91_fast_packet_partial (someParse_spec env) mem (fun _ => 0)
    (addFastPackets Nmea2k.Table.pgnList []) m p
    (Canusb.sampleFields.map fun d => Canusb.bodyText 0x0D 0xF8 0x05 5 d ++ [48, 48, 48, 48])
    (by
      have hb : ∀ l ∈ Canusb.sampleFields.map (fun d => Canusb.bodyText 0x0D 0xF8 0x05 5 d ++ [48, 48, 48, 48]),
          l.head? = some 84 ∧ ∀ b ∈ l.tail, Canusb.isStart b = false ∧ b ≠ 13 := by decide +kernel
      intro l hl
      obtain ⟨h1, h2⟩ := hb l hl
      cases l with
      | nil => cases h1
      | cons c t =>
        simp only [List.head?_cons, Option.some.injEq] at h1
        refine ⟨c, t, rfl, Or.inr (Or.inl h1), fun b hb => ⟨fun hs => ?_, (h2 b hb).2⟩⟩
        have := (h2 b hb).1
        rw [(Canusb.isStart_iff b).2 hs] at this
        cases this)
    (CanSpec.decoded 0x0DF80505 []) 2 Canusb.samplePayload [0xFF, 0xFF] (by decide)
    ((C88_registry _ List.Pairwise.nil _).2 (Or.inr ⟨_, List.mem_of_getElem? (i := 109) rfl, by decide +kernel,
      by decide +kernel⟩))
    (by
      rw [Canusb.sampleFields_eq]
      have : (Canusb.sampleFields.map fun d => Canusb.bodyText 0x0D 0xF8 0x05 5 d ++ [48, 48, 48, 48]).map
          (Canusb.grown (fun _ => 0)) =
          Canusb.sampleFields.map fun d => ⟨Canusb.bodyText 0x0D 0xF8 0x05 5 d ++ [48, 48, 48, 48], []⟩ := by
        decide +kernel
      rw [this]
      exact Canusb.lines_parse 0x0D 0xF8 0x05 5 Canusb.sampleFields [48, 48, 48, 48] rfl (by decide))
    (C90_harmless (by decide))
  refine ⟨q, h1, ?_, ?_, ?_⟩
  · exact congrArg MsgView.pgn h2
  · exact congrArg MsgView.source h2
  · exact congrArg MsgView.data h2

/-- **C91** is false: with the registry made of the shipped table, a lone continuation frame of a fast packet (a beginning was never
received) is handed over as a message, its sequence byte taken for data. -/
theorem C91_false {env : Nmea2k.Env} {parse : RawMessage → GoM Parsed}
    (hparse : ∀ m, Nmea2k.ParsePacket Nmea2k.Table.pgnList env m (parse m)) (mem : Nat → List Byte) (p : Canusb.CanPort) :
    ∃ line q, Canusb.IsLine line ∧
      others (canusbActs parse mem (fun _ => 0) (addFastPackets Nmea2k.Table.pgnList []) Canusb.noPartials p ((line ++ [13]).map Ev.byte)).1 =
        [.handed q] ∧
      Canusb.isFastPacket (addFastPackets Nmea2k.Table.pgnList []) q.header.pgn = true ∧ q.header.data.vis = [0x41, 1, 2, 3, 4, 5, 6, 7] := by
  have hb : (Canusb.bodyText 0x0D 0xF8 0x05 5 [0x41, 1, 2, 3, 4, 5, 6, 7] ++ [48, 48, 48, 48]).head? = some 84 ∧
      ∀ b ∈ (Canusb.bodyText 0x0D 0xF8 0x05 5 [0x41, 1, 2, 3, 4, 5, 6, 7] ++ [48, 48, 48, 48]).tail, Canusb.isStart b = false ∧ b ≠ 13 := by
    decide +kernel
  have hline : Canusb.IsLine (Canusb.bodyText 0x0D 0xF8 0x05 5 [0x41, 1, 2, 3, 4, 5, 6, 7] ++ [48, 48, 48, 48]) := by
    obtain ⟨h1, h2⟩ := hb
    revert h1 h2
    generalize Canusb.bodyText 0x0D 0xF8 0x05 5 [0x41, 1, 2, 3, 4, 5, 6, 7] ++ [48, 48, 48, 48] = l
    intro h1 h2
    cases l with
    | nil => cases h1
    | cons a l =>
      obtain rfl := Option.some.inj h1
      refine ⟨_, l, rfl, Or.inr (Or.inl rfl), fun b hb => ⟨fun hs => ?_, (h2 b hb).2⟩⟩
      have := (h2 b hb).1
      rw [(Canusb.isStart_iff b).2 hs] at this
      cases this
  have hr : (Canusb.receive (addFastPackets Nmea2k.Table.pgnList []) Canusb.noPartials
      ([Canusb.bodyText 0x0D 0xF8 0x05 5 [0x41, 1, 2, 3, 4, 5, 6, 7] ++ [48, 48, 48, 48]].map (Canusb.grown fun _ => 0))).toOption.map Prod.fst =
      some [some { priority := 3, pgn := 129029, source := 5, destination := 255, length := 8, data := [0x41, 1, 2, 3, 4, 5, 6, 7] }] := by
    decide +kernel
  cases hrec : Canusb.receive (addFastPackets Nmea2k.Table.pgnList []) Canusb.noPartials
      ([Canusb.bodyText 0x0D 0xF8 0x05 5 [0x41, 1, 2, 3, 4, 5, 6, 7] ++ [48, 48, 48, 48]].map (Canusb.grown fun _ => 0)) with
  | error e => rw [hrec] at hr; cases hr
  | ok x =>
    rw [hrec] at hr
    obtain ⟨outs, m'⟩ := x
    obtain rfl : outs = _ := Option.some.inj hr
    have h := C91_canusb_partial hparse mem (fun _ => 0) (addFastPackets Nmea2k.Table.pgnList []) Canusb.noPartials p
      [Canusb.bodyText 0x0D 0xF8 0x05 5 [0x41, 1, 2, 3, 4, 5, 6, 7] ++ [48, 48, 48, 48]]
      (by intro l hl; obtain rfl := List.mem_singleton.mp hl; exact hline) hrec
      (by
        intro v hv
        obtain rfl := Option.some.inj (List.mem_singleton.mp hv)
        refine ⟨?_, by simp⟩
        rintro (⟨h, _⟩ | h)
        · simp at h
        · exact absurd (overlong_pgns h) (by simp))
    obtain ⟨⟨ps, h1, h2⟩, _⟩ := h
    cases h2 with
    | cons hq h2 =>
      cases h2
      rename_i q
      refine ⟨_, q, hline, ?_, ?_, ?_⟩
      · simpa using h1
      · have : q.header.pgn = 129029 := congrArg MsgView.pgn hq.1
        rw [this]
        decide +kernel
      · exact congrArg MsgView.data hq.1

end Argo.Iface
