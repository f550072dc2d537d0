import Verif.Main.Values
import Verif.Nmea2k.Values
import Verif.Nmea2k.Short
import Verif.Signalk.Live

set_option autoImplicit false

/-!
# C118: from the bits of any message to what is reported of it

C99_field is for messages of PGNs with one definition, without repetition and as long as the definition. Here: every
message, of any PGN and length, with any number of repetitions.
-/

namespace Argo.Main

open Argo
open Argo.Nmea2k (Parsed Val DataMap Pgn)
open Argo.Nmea2k.Table (pgnList)
open Argo.Nmea2k.Spec (entryOf entryPos entryField byteCount onlyDefinition startFits readAs misread fieldValue)
open Argo.Signalk (MapTable.maps Str Value)
open Argo.Signalk.Spec (pairs dotted)

/-! ## Specification -/

/-- The message reaches entry `k` of its definition: this entry and all before it lie within the message. -/
def Reaches (data : List Byte) (d : Pgn) (k : Nat) : Prop :=
  ∀ l, l ≤ k → ∃ f, entryOf d l = some f ∧ entryPos d l / 8 + byteCount f.size ≤ data.length

/-- A value that is not "no value". -/
def given : Option Val → Option Val
  | some .nil => none
  | r => r

open Classical in
/-- The value of the bits of entry `k` (fields in order, the repeating group over and over); none if the message does
not reach it or the bits say "no value". -/
noncomputable def EntryOnWire (env : Nmea2k.Env) (v : MsgView) (d : Pgn) (k : Nat) : Option Val :=
  if Reaches v.data d k then
    (entryOf d k).bind fun f => given (fieldValue env v.data f (entryPos d k))
  else none

/-- The field of the definition that entry `k` belongs to. -/
def fieldOf (d : Pgn) (k : Nat) : Nat := entryField d.fieldList.length d.repeatingFields k

/-- The group asks for entry `k` of the message: it has its PGN, it names the entry (or, if its path has a placeholder
for the number of the repetition, the field in any repetition) and the texts of the entries its conditions name are as
they demand. -/
def AsksEntry (denv : Signalk.Env Val) (env : Nmea2k.Env) (v : MsgView) (d : Pgn) (k : Nat) (g : Signalk.Group) : Prop :=
  g.pgn = v.pgn ∧
    (∃ fld : Nat, Signalk.parseInt g.field 64 = ((fld : Int), true) ∧ (fld = k ∨ Signalk.Spec.hasMult g ∧ fld = fieldOf d k)) ∧
    ∀ c ∈ g.conditions, denv.text (EntryOnWire env v d c.field.toNat) = c.value

/-- The path of the mapping for entry `k`, the placeholder of a classifier replaced by the text of the entry it names and
that of a multiplier by the text of the field it names, in the repetition entry `k` is in. -/
noncomputable def EntryPath (denv : Signalk.Env Val) (env : Nmea2k.Env) (v : MsgView) (d : Pgn) (k : Nat)
    (mp : Signalk.Mapping) (g : Signalk.Group) : Str :=
  let p := if Signalk.Spec.hasCls g then
      Signalk.replaceFirst (Signalk.bs "{" ++ g.clsId ++ Signalk.bs "}")
        (denv.text (EntryOnWire env v d (Signalk.parseInt g.clsField 32).1.toNat)) (dotted mp.path)
    else dotted mp.path
  if Signalk.Spec.hasMult g then
    Signalk.replaceFirst (Signalk.bs "{" ++ g.multId ++ Signalk.bs "}")
      (denv.text (EntryOnWire env v d (k + (Signalk.parseInt g.multField 32).1.toNat - fieldOf d k))) p
  else p

/-- The path the mapping file has for entry `k`: that of the first group that asks for it. -/
def EntryNamed (denv : Signalk.Env Val) (env : Nmea2k.Env) (v : MsgView) (d : Pgn) (k : Nat) (path : Str) : Prop :=
  ∃ pre mp g post, pairs MapTable.maps = pre ++ (mp, g) :: post ∧ AsksEntry denv env v d k g ∧
    (∀ q ∈ pre, ¬ AsksEntry denv env v d k q.2) ∧ path = EntryPath denv env v d k mp g ∧ path ≠ []

/-- The message is not empty, and if it is of one of the three PGNs that begin with a number of two bytes it has two. -/
def Ample (v : MsgView) : Prop := v.data ≠ [] ∧ (v.pgn ∈ [65001, 65002, 65003] → 2 ≤ v.data.length)

/-! ## Entries -/

/-- No field of a message the mapping file has groups for is empty (130820 excepted). -/
theorem table_sizes : ∀ pg ∈ pairs MapTable.maps, pg.2.pgn ≠ 130820 → ∀ d ∈ pgnList, d.pgn = pg.2.pgn →
    ∀ f ∈ d.fieldList, 1 ≤ byteCount f.size := by
  have h : pgnList.all (fun d => !((pairs MapTable.maps).any fun pg => pg.2.pgn != 130820 && d.pgn == pg.2.pgn) ||
      d.fieldList.all (fun f => decide (1 ≤ byteCount f.size))) = true := by
    decide +kernel
  intro pg hpg hn d hd hp f hf
  have h1 := List.all_eq_true.mp h d hd
  rw [show ((pairs MapTable.maps).any fun pg => pg.2.pgn != 130820 && d.pgn == pg.2.pgn) = true from
    List.any_eq_true.mpr ⟨pg, hpg, by simp [hn, hp]⟩, Bool.not_true, Bool.false_or] at h1
  exact of_decide_eq_true (List.all_eq_true.mp h1 f hf)

/-- The PGNs the mapping file has groups for have one definition each (130820 excepted). -/
theorem mapped_only : ∀ pg ∈ pairs MapTable.maps, pg.2.pgn ≠ 130820 → pg.2.pgn ≠ 60928 ∧
    ∃ i d, onlyDefinition pgnList pg.2.pgn i d ∧ ∀ k, ¬ misread i k := by
  have h : (pairs MapTable.maps).all (fun pg => pg.2.pgn == 130820 || (pg.2.pgn != 60928 &&
      pgnList.zipIdx.any (fun e => e.1.pgn == pg.2.pgn && (Nmea2k.onlyB pgnList e.2 e.1 && (decide (e.2 < 181) || decide (219 < e.2)))))) = true := by
    decide +kernel
  intro pg hpg hn
  have h1 := List.all_eq_true.mp h pg hpg
  rw [show (pg.2.pgn == 130820) = false by simpa using hn, Bool.false_or, Bool.and_eq_true] at h1
  obtain ⟨⟨d, i⟩, e1, e2⟩ := List.any_eq_true.mp h1.2
  simp only [Bool.and_eq_true, beq_iff_eq, Bool.or_eq_true, decide_eq_true_eq] at e2
  obtain ⟨e3, e4, e5⟩ := e2
  refine ⟨by simpa using h1.1, i, d, ?_, fun k hk => ?_⟩
  · rw [← e3]; exact Nmea2k.onlyB_spec (List.mem_zipIdx_iff_getElem?.mp e1) e4
  · unfold misread at hk; omega

theorem table_groups : ∀ d ∈ pgnList, d.repeatingFields ≤ d.fieldList.length := by
  have h : pgnList.all (fun d => decide (d.repeatingFields ≤ d.fieldList.length)) = true := by decide +kernel
  intro d hd
  exact of_decide_eq_true (List.all_eq_true.mp h d hd)

theorem entryOf_mem {d : Pgn} {k : Nat} {f : Nmea2k.Field} (h : entryOf d k = some f) : f ∈ d.fieldList :=
  List.mem_of_getElem? h

/-- The entries of a decoded message are those the message reaches. -/
theorem reaches_iff {env : Nmea2k.Env} {data : List Byte} {d : Pgn} (hd : ∀ f ∈ d.fieldList, 1 ≤ byteCount f.size) {ex : Nat → Prop} {values : DataMap}
    (h : readAs env data d ex values) (k : Nat) : k < values.length ↔ Reaches data d k := by
  obtain ⟨_, h2, h3⟩ := h
  constructor
  · intro hk l hl
    obtain ⟨f, f1, f2, _⟩ := h2 l (by omega)
    exact ⟨f, f1, f2⟩
  · intro hr
    refine Decidable.byContradiction fun hk => ?_
    obtain ⟨f, f1, f2⟩ := hr values.length (by omega)
    rcases h3 with ⟨a, b⟩ | ⟨hz, _, b⟩ | ⟨f', a, b⟩
    · unfold entryOf entryField at f1
      rw [if_pos (Or.inl a), b, List.getElem?_eq_none (Nat.le_refl _)] at f1
      cases f1
    · have := hd f (entryOf_mem f1); omega
    · rw [a] at f1; cases f1; omega

section
variable {env : Nmea2k.Env} {v : MsgView} {p : Parsed} {d : Pgn}

/-- The data of a message read as `d`, in any order, as Delta sees them. -/
theorem entries_get (hd : ∀ f ∈ d.fieldList, 1 ≤ byteCount f.size) (hread : readAs env v.data d (fun _ => False) p.data)
    {order : DataMap} (hperm : order.Perm p.data) :
    ((Signalk.toMsg { p with data := order }).data.map Prod.fst).Nodup ∧
    (∀ k val, EntryOnWire env v d k = some val → ((k : Int), some val) ∈ (Signalk.toMsg { p with data := order }).data) ∧
    ∀ k : Nat, (Signalk.toMsg { p with data := order }).data.get (k : Int) = EntryOnWire env v d k := by
  have hreach := reaches_iff hd hread
  obtain ⟨e6, e7, _⟩ := hread
  have hnd : (p.data.map Prod.fst).Nodup := by rw [e6]; exact List.nodup_range
  have hnd' : (order.map Prod.fst).Nodup := (hperm.map Prod.fst).nodup_iff.mpr hnd
  have hnm : ((Signalk.toMsg { p with data := order }).data.map Prod.fst).Nodup := by
    have : (Signalk.toMsg { p with data := order }).data.map Prod.fst = (order.map Prod.fst).map (fun n : Nat => (n : Int)) := by
      unfold Signalk.toMsg
      rw [List.map_map, List.map_map]; rfl
    rw [this]
    exact List.Pairwise.map _ (fun a b h => by simpa using h) hnd'
  have hin : ∀ k, k < p.data.length → (k, p.data.get k) ∈ p.data := by
    intro k hk
    have hkm : k ∈ p.data.map Prod.fst := by rw [e6]; exact List.mem_range.mpr hk
    obtain ⟨e, he, hek⟩ := List.mem_map.mp hkm
    unfold Nmea2k.DataMap.get
    cases hx : p.data.find? (fun e => decide (e.1 = k)) with
    | none =>
      have := List.find?_eq_none.mp hx e he
      simp only [decide_eq_true_eq] at this
      exact absurd hek this
    | some e' =>
      have h1 := List.mem_of_find?_eq_some hx
      have h2 := List.find?_some hx
      simp only [decide_eq_true_eq] at h2
      have : e' = (k, e'.2) := Prod.ext h2 rfl
      rw [this] at h1; exact h1
  have hmsg : ∀ k : Nat, k < p.data.length → ((k : Int), EntryOnWire env v d k) ∈ (Signalk.toMsg { p with data := order }).data := by
    intro k hk
    refine List.mem_map.mpr ⟨_, hperm.symm.subset (hin k hk), ?_⟩
    obtain ⟨f, f1, _, f3⟩ := e7 k hk
    unfold EntryOnWire
    rw [if_pos ((hreach k).mp hk), f1, Option.bind_some, f3 id]
    cases fieldValue env v.data f (entryPos d k) with
    | none => rfl
    | some val => cases val <;> rfl
  refine ⟨hnm, fun k val h => ?_, fun k => ?_⟩
  · have hk : k < p.data.length := by
      refine (hreach k).mpr (Classical.byContradiction fun hn => ?_)
      unfold EntryOnWire at h; rw [if_neg hn] at h; cases h
    rw [← h]; exact hmsg k hk
  · unfold Signalk.Data.get
    by_cases hk : k < p.data.length
    · rw [(Signalk.mapFind_iff hnm _ _).mpr (hmsg k hk)]; rfl
    · have e : EntryOnWire env v d k = none := by
        unfold EntryOnWire; rw [if_neg (fun h => hk ((hreach k).mpr h))]
      rw [e]
      cases hx : Signalk.mapFind (Signalk.toMsg { p with data := order }).data (k : Int) with
      | none => rfl
      | some o =>
        exfalso
        have := (Signalk.mapFind_iff hnm _ _).mp hx
        obtain ⟨e, he, hek⟩ := List.mem_map.mp this
        have h1 : e.1 = k := by injection hek with h _; simpa using h
        have : k ∈ p.data.map Prod.fst := List.mem_map.mpr ⟨e, hperm.subset he, h1⟩
        rw [e6] at this
        exact hk (List.mem_range.mp this)

end

/-! ## One message -/

/-- Groups with a multiplier are for PGN 127503, name field 3 and the number of the line in field 2. -/
theorem shipped_multiplier : ∀ mp ∈ MapTable.maps, ∀ g ∈ mp.groups, Signalk.Spec.hasMult g →
    g.pgn = 127503 ∧ Signalk.parseInt g.field 64 = (3, true) ∧ (Signalk.parseInt g.multField 32).1 = 2 := by
  decide +kernel

theorem shipped_natural : ∀ mp ∈ MapTable.maps, ∀ g ∈ mp.groups, (Signalk.parseInt g.field 64).2 = true →
    Signalk.parseInt g.field 64 = (((Signalk.parseInt g.field 64).1.toNat : Int), true) := by decide +kernel

theorem eq_takeWhile {α : Type} {q : α → Bool} : ∀ {l : List α}, (∀ c ∈ l, q c = true) → l.takeWhile q = l := by
  intro l
  induction l with
  | nil => intro _; rfl
  | cons a l ih =>
    intro h
    rw [List.takeWhile_cons, if_pos (h a (by simp)), ih (fun c hc => h c (by simp [hc]))]

section
variable {env : Nmea2k.Env} {denv : Signalk.Env Val} {v : MsgView} {p : Parsed} {d : Pgn}

theorem ac_definition {i : Nat} (ho : onlyDefinition pgnList v.pgn i d) (hc : v.pgn = 127503) :
    d.repeatingFields = 10 ∧ d.fieldList.length = 12 := by
  have hac := Signalk.ac_only
  have := hac.2.2 i d ho.1 (by rw [ho.2.1, hc])
  have hx := ho.1
  rw [this, hac.1] at hx
  have hx := Option.some.inj hx
  rw [← hx]
  exact ⟨by decide +kernel, by decide +kernel⟩

theorem fusion_several : ∀ i d, ¬ onlyDefinition pgnList 130820 i d := by
  intro i d ho
  have h1 : pgnList[202]?.map (·.pgn) = some 130820 := by decide +kernel
  have h2 : pgnList[203]?.map (·.pgn) = some 130820 := by decide +kernel
  obtain ⟨q1, a1, b1⟩ := Option.map_eq_some_iff.mp h1
  obtain ⟨q2, a2, b2⟩ := Option.map_eq_some_iff.mp h2
  have := ho.2.2 202 q1 a1 b1
  have := ho.2.2 203 q2 a2 b2
  omega

/-- The conditions of the groups for PGN 130820 are never met. -/
theorem fusion_quiet {conv : Int → Nat} (hprints : Signalk.Prints denv)
    (hp : Nmea2k.ParsePacket pgnList (Nmea2k.shippedEnv conv) p.header (.ok p)) (hpgn : p.header.pgn = 130820)
    {order : DataMap} (hperm : order.Perm p.data) {mp : Signalk.Mapping} {g : Signalk.Group}
    (h1 : mp ∈ MapTable.maps) (h2 : g ∈ mp.groups) (hg : g.pgn = 130820) :
    ¬ Signalk.Spec.accepted denv (Signalk.toMsg { p with data := order }).data g.conditions := by
  intro hacc
  obtain ⟨c, hc, hop, hfield, hval⟩ := Signalk.fusion_groups mp h1 g h2 hg
  have hcond := shipped_conditions _ h1 _ h2
  have hall : g.conditions.takeWhile (fun c => Signalk.Spec.knownOp c.op) = g.conditions := by
    refine eq_takeWhile fun c hc => ?_
    rw [(hcond c hc).1]; decide +kernel
  unfold Signalk.Spec.accepted at hacc
  rw [hall] at hacc
  have h := (hacc c hc).1 hop
  have hnd := Signalk.parsed_keys hp
  have hget : ∀ k : Int, (Signalk.toMsg { p with data := order }).data.get k = (Signalk.toMsg p).data.get k := by
    intro k
    have hperm' := toMsg_perm (p := p) hperm
    have hnd' := (hperm'.map Prod.fst).nodup_iff.mp hnd
    unfold Signalk.Data.get
    cases hx : Signalk.mapFind (Signalk.toMsg p).data k with
    | some o =>
      have := (Signalk.mapFind_iff hnd _ _).mp hx
      rw [(Signalk.mapFind_iff hnd' _ _).mpr (hperm'.subset this)]
    | none =>
      cases hy : Signalk.mapFind (Signalk.toMsg { p with data := order }).data k with
      | none => rfl
      | some o =>
        have := (Signalk.mapFind_iff hnd' _ _).mp hy
        rw [(Signalk.mapFind_iff hnd _ _).mpr (hperm'.symm.subset this)] at hx; cases hx
  rw [hget] at h
  have hn : Signalk.Named denv ((Signalk.toMsg p).data.get c.field) := by
    rw [hfield, show (0 : Int) = ((0 : Nat) : Int) from rfl, Signalk.toMsg_get]
    rcases Signalk.fusion_named hprints hpgn hp with h0 | h0
    · rw [h0]; exact Signalk.named_none denv
    · cases hv : p.data.get 0 with
      | nil => exact Signalk.named_none denv
      | _ => rw [hv] at h0; exact h0
  rcases hval with e | e
  · rw [e] at h; exact hn.1 h
  · rw [e] at h; exact hn.2 h

/-- What is reported of a message read as the only definition of its PGN. -/
theorem entries_reported {i : Nat} (ho : onlyDefinition pgnList v.pgn i d) (hpgn : p.header.pgn = v.pgn)
    (hidx : p.index = i) (hsz : ∀ f ∈ d.fieldList, 1 ≤ byteCount f.size) (hread : readAs env v.data d (fun _ => False) p.data)
    {values : List (Str × Value Val)} (hr : Reports denv p values) (path : Str) (val : Val) :
    (path, Value.plain val) ∈ values ↔ ∃ k, EntryOnWire env v d k = some val ∧ EntryNamed denv env v d k path := by
  obtain ⟨d', order, hd', hperm, hpl, _⟩ := hr
  have hdd : d' = d := by
    rw [hidx, ho.1] at hd'; exact (Option.some.inj hd').symm
  subst hdd
  obtain ⟨hnm, w1, w2⟩ := entries_get hsz hread hperm
  have hpgn' : (Signalk.toMsg { p with data := order }).pgn = v.pgn := hpgn
  have happ : ∀ pg ∈ pairs MapTable.maps, ∀ k : Nat,
      (Signalk.Spec.applies denv (Signalk.toMsg { p with data := order }) d'.repeatingFields (k : Int) pg ↔
        AsksEntry denv env v d' k pg.2) := by
    intro pg hpg k
    obtain ⟨m1, m2⟩ := Signalk.mem_pairs.mp (show (pg.1, pg.2) ∈ pairs MapTable.maps from hpg)
    have hcond := shipped_conditions _ m1 _ m2
    have hacc : Signalk.Spec.accepted denv (Signalk.toMsg { p with data := order }).data pg.2.conditions ↔
        ∀ c ∈ pg.2.conditions, denv.text (EntryOnWire env v d' c.field.toNat) = c.value := by
      have hall : pg.2.conditions.takeWhile (fun c => Signalk.Spec.knownOp c.op) = pg.2.conditions := by
        refine eq_takeWhile fun c hc => ?_
        rw [(hcond c hc).1]; decide +kernel
      unfold Signalk.Spec.accepted
      rw [hall]
      refine forall₂_congr fun c hc => ?_
      obtain ⟨c1, c2⟩ := hcond c hc
      have hg : (Signalk.toMsg { p with data := order }).data.get c.field = EntryOnWire env v d' c.field.toNat := by
        conv => lhs; rw [c2]
        exact w2 _
      unfold Signalk.Spec.holds
      rw [hg, c1]
      constructor
      · intro h; exact h.1 rfl
      · intro h
        refine ⟨fun _ => h, fun h' => ?_, fun h' => ?_, fun h' => ?_, fun h' => ?_⟩ <;>
          exact absurd h' (by decide +kernel)
    unfold Signalk.Spec.applies AsksEntry
    rw [hpgn', hacc]
    refine and_congr_right fun a1 => and_congr_left fun _ => ?_
    unfold Signalk.Spec.names
    by_cases hm : Signalk.Spec.hasMult pg.2
    · obtain ⟨b1, b2, b3⟩ := shipped_multiplier _ m1 _ m2 hm
      obtain ⟨c1, c2⟩ := ac_definition ho (by rw [← a1, b1])
      unfold fieldOf entryField Signalk.Spec.multField
      rw [b2, c1, c2, if_pos hm, b3]
      have hk : ((k : Int)).tmod ((10 : Nat) : Int) = ((k % 10 : Nat) : Int) := by
        rw [Int.tmod_eq_emod_of_nonneg (by omega)]; norm_cast
      constructor
      · rintro ⟨_, h | ⟨_, _, _, h⟩⟩
        · exact ⟨3, rfl, Or.inl (by omega)⟩
        · refine ⟨3, rfl, Or.inr ⟨hm, ?_⟩⟩
          rw [hk] at h
          split <;> omega
      · rintro ⟨fld, h1, h2⟩
        have h1 : fld = 3 := by injection h1 with h1 _; omega
        subst h1
        refine ⟨rfl, ?_⟩
        rcases h2 with h2 | ⟨_, h2⟩
        · exact Or.inl (by simp; omega)
        · refine Or.inr ⟨hm, by omega, by simp, ?_⟩
          rw [hk]
          split at h2 <;> omega
    · constructor
      · rintro ⟨h, h1 | ⟨h1, _⟩⟩
        · exact ⟨k, by rw [← h1]; exact Prod.ext rfl h, Or.inl rfl⟩
        · exact absurd h1 hm
      · rintro ⟨fld, h1, h2 | ⟨h2, _⟩⟩
        · rw [h1, h2]; exact ⟨rfl, Or.inl rfl⟩
        · exact absurd h2 hm
  have hpath : ∀ pg ∈ pairs MapTable.maps, ∀ k : Nat, AsksEntry denv env v d' k pg.2 →
      Signalk.Spec.pathFor denv (Signalk.toMsg { p with data := order }).data d'.repeatingFields (k : Int) pg.1 pg.2 =
        EntryPath denv env v d' k pg.1 pg.2 := by
    intro pg hpg k hask
    obtain ⟨m1, m2⟩ := Signalk.mem_pairs.mp (show (pg.1, pg.2) ∈ pairs MapTable.maps from hpg)
    have hcls : ∀ q : Str, (if Signalk.Spec.hasCls pg.2 then
          Signalk.replaceFirst (Signalk.bs "{" ++ pg.2.clsId ++ Signalk.bs "}")
            (denv.text ((Signalk.toMsg { p with data := order }).data.get (Signalk.parseInt pg.2.clsField 32).1)) q else q) =
        (if Signalk.Spec.hasCls pg.2 then
          Signalk.replaceFirst (Signalk.bs "{" ++ pg.2.clsId ++ Signalk.bs "}")
            (denv.text (EntryOnWire env v d' (Signalk.parseInt pg.2.clsField 32).1.toNat)) q else q) := by
      intro q
      by_cases hc : Signalk.Spec.hasCls pg.2
      · rw [if_pos hc, if_pos hc, (shipped_cls _ m1 _ m2 hc), w2]; rfl
      · rw [if_neg hc, if_neg hc]
    unfold Signalk.Spec.pathFor EntryPath
    simp only [Signalk.Spec.textOf_eq]
    rw [hcls]
    by_cases hm : Signalk.Spec.hasMult pg.2
    · rw [if_pos hm, if_pos hm]
      obtain ⟨b1, b2, b3⟩ := shipped_multiplier _ m1 _ m2 hm
      obtain ⟨c1, c2⟩ := ac_definition ho (by rw [← hask.1, b1])
      have hk3 : fieldOf d' k = 3 := by
        obtain ⟨fld, f1, f2⟩ := hask.2.1
        rw [b2] at f1
        have : fld = 3 := by injection f1 with f1 _; omega
        subst this
        rcases f2 with f2 | ⟨_, f2⟩
        · unfold fieldOf entryField; rw [c2, if_pos (Or.inr (by omega))]; exact f2.symm
        · exact f2.symm
      have hge : 3 ≤ k ∧ k % 10 = 3 := by
        have := hk3
        unfold fieldOf entryField at this
        rw [c1, c2] at this
        split at this <;> omega
      have hidx : Signalk.Spec.multIndex pg.2 d'.repeatingFields (k : Int) =
          ((k + (Signalk.parseInt pg.2.multField 32).1.toNat - fieldOf d' k : Nat) : Int) := by
        unfold Signalk.Spec.multIndex Signalk.Spec.multField
        rw [if_pos hm, b3, c1, hk3]
        rw [Int.tdiv_eq_ediv_of_nonneg (by omega)]
        have : (2 : Int).toNat = 2 := rfl
        rw [this]
        omega
      rw [hidx, w2]
    · rw [if_neg hm, if_neg hm]
  rw [← Signalk.mem_plainPart, hpl, List.mem_filterMap]
  constructor
  · rintro ⟨⟨kk, o⟩, hmem, hcon⟩
    have hk : ∃ k : Nat, kk = (k : Int) := by
      obtain ⟨e, _, he⟩ := List.mem_map.mp hmem
      injection he with he _
      exact ⟨e.1, he.symm⟩
    obtain ⟨k, rfl⟩ := hk
    have ho' : o = EntryOnWire env v d' k := by
      rw [← w2 k]
      unfold Signalk.Data.get
      rw [(Signalk.mapFind_iff hnm _ _).mpr hmem]; rfl
    unfold Signalk.Spec.contribution at hcon
    obtain ⟨pg, hfind, hcon⟩ := Option.bind_eq_some_iff.mp hcon
    obtain ⟨val', hval, hcon⟩ := Option.bind_eq_some_iff.mp hcon
    simp only at hval
    split at hcon
    · cases hcon
    · rename_i hne
      injection hcon with hcon
      injection hcon with c1 c2
      subst c2
      have hpgm := List.mem_of_find?_eq_some hfind
      obtain ⟨pre, post, hs, hno⟩ := (List.find?_eq_some_iff_append.mp hfind).2
      have hap := (List.find?_eq_some_iff_append.mp hfind).1
      have hap : Signalk.Spec.applies denv (Signalk.toMsg { p with data := order }) d'.repeatingFields (k : Int) pg := by
        simpa using hap
      have hask := (happ pg hpgm k).mp hap
      rw [hpath pg hpgm k hask] at c1 hne
      refine ⟨k, by rw [← ho']; exact hval, pre, pg.1, pg.2, post, hs, hask, ?_, c1.symm, by rw [← c1]; exact hne⟩
      intro q hq hask
      have hqm : q ∈ pairs MapTable.maps := by rw [hs]; simp [hq]
      have := hno q hq
      simp only [Bool.not_eq_true', decide_eq_false_iff_not] at this
      exact this ((happ q hqm k).mpr hask)
  · rintro ⟨k, hw, pre, mp, g, post, hs, hask, hno, rfl, hne⟩
    have hmem : (mp, g) ∈ pairs MapTable.maps := by rw [hs]; simp
    refine ⟨((k : Int), some val), w1 k val hw, ?_⟩
    unfold Signalk.Spec.contribution
    have : (pairs MapTable.maps).find? (fun pg => @decide (Signalk.Spec.applies denv
        (Signalk.toMsg { p with data := order }) d'.repeatingFields (k : Int) pg) (Classical.propDecidable _)) = some (mp, g) := by
      have hpos := (happ (mp, g) hmem k).mpr hask
      conv => lhs; arg 2; rw [hs]
      rw [List.find?_append, List.find?_eq_none.mpr ?_, List.find?_cons_of_pos (by simpa using hpos)]
      · rfl
      · intro pg hpg hap
        simp only [decide_eq_true_eq] at hap
        exact hno pg hpg ((happ pg (by rw [hs]; simp [hpg]) k).mp hap)
    rw [this]
    simp only [Option.bind_some]
    rw [hpath (mp, g) hmem k hask, if_neg hne]

/-- Messages whose fields in the first byte lie within them. -/
theorem field_fits {conv : Int → Nat} (hprints : Signalk.Prints denv)
    (hdec : Iface.Decoded (Nmea2k.shippedEnv conv) v p)
    (hstart : (∃ pg ∈ pairs MapTable.maps, pg.2.pgn = v.pgn ∧ v.pgn ≠ 130820) →
      ∀ d ∈ pgnList, d.pgn = v.pgn → startFits v.data d)
    {values : List (Str × Value Val)} (hr : Reports denv p values) (path : Str) (val : Val) :
    (path, Value.plain val) ∈ values ↔ ∃ i d k, onlyDefinition pgnList v.pgn i d ∧
      EntryOnWire (Nmea2k.shippedEnv conv) v d k = some val ∧ EntryNamed denv (Nmea2k.shippedEnv conv) v d k path := by
  obtain ⟨hv, hp⟩ := hdec
  have hpgn : p.header.pgn = v.pgn := by rw [← hv]; rfl
  have hdata : p.header.data.vis = v.data := by rw [← hv]; rfl
  by_cases hmap : ∃ pg ∈ pairs MapTable.maps, pg.2.pgn = v.pgn ∧ v.pgn ≠ 130820
  · have hstart := hstart hmap
    obtain ⟨pg, hpg, hpv, hne⟩ := hmap
    obtain ⟨h60, i, d, ho, hmis⟩ := mapped_only pg hpg (by rw [hpv]; exact hne)
    have hsz := table_sizes pg hpg (by rw [hpv]; exact hne) d (List.mem_of_getElem? ho.1) (by rw [ho.2.1])
    rw [hpv] at h60 ho
    have hdef : Nmea2k.Spec.definitions pgnList p.header.pgn i i := by
      rw [hpgn]
      refine ⟨Nat.le_refl _, (List.getElem?_eq_some_iff.mp ho.1).1, fun t q hq => ⟨fun h => ?_, fun h => ?_⟩⟩
      · have := ho.2.2 t q hq h; omega
      · have : t = i := by omega
        subst this
        rw [ho.1] at hq; rw [← Option.some.inj hq]; exact ho.2.1
    have hd0 : d ∈ pgnList := List.mem_of_getElem? ho.1
    have hi := (Nmea2k.one_result (m := p.header) (i := i) (d := d) (by rw [hpgn]; exact ho) (table_groups d hd0) hp).1
    obtain ⟨_, hread⟩ := Nmea2k.C117_partial hdef (by rw [hpgn]; exact h60) (by
      intro t q a b hq
      rw [hdata]
      exact hstart q (List.mem_of_getElem? hq) (by rw [← hpgn]; exact (hdef.2.2 t q hq).mpr ⟨a, b⟩)) hp
    obtain ⟨d', hd', _, r1, r2, r3⟩ := hread (by omega)
    have : d' = d := by rw [hi, ho.1] at hd'; exact (Option.some.inj hd').symm
    subst this
    rw [hdata] at r2 r3
    rw [entries_reported ho hpgn hi hsz ⟨r1, fun k hk => by
      obtain ⟨f, f1, f2, f3⟩ := r2 k hk
      exact ⟨f, f1, f2, fun _ => f3 (by rw [hi]; exact hmis k)⟩, r3⟩ hr]
    constructor
    · rintro ⟨k, h1, h2⟩; exact ⟨i, d', k, ho, h1, h2⟩
    · rintro ⟨i', e, k, h0, h1, h2⟩
      have : i' = i := ho.2.2 i' e h0.1 h0.2.1
      subst this
      have : e = d' := by have := h0.1; rw [ho.1] at this; exact (Option.some.inj this).symm
      subst this
      exact ⟨k, h1, h2⟩
  · have hright : ¬ ∃ i d k, onlyDefinition pgnList v.pgn i d ∧
        EntryOnWire (Nmea2k.shippedEnv conv) v d k = some val ∧ EntryNamed denv (Nmea2k.shippedEnv conv) v d k path := by
      rintro ⟨i, d, k, ho, _, pre, mp, g, post, hs, hask, _⟩
      have hm : (mp, g) ∈ pairs MapTable.maps := by rw [hs]; simp
      refine hmap ⟨(mp, g), hm, hask.1, fun h => ?_⟩
      rw [h] at ho
      exact fusion_several i d ho
    refine ⟨fun hmem => absurd hmem ?_, fun h => absurd h hright⟩
    intro hmem
    obtain ⟨d', order, hd', hperm, hpl, _⟩ := hr
    rw [← Signalk.mem_plainPart, hpl, List.mem_filterMap] at hmem
    obtain ⟨⟨kk, o⟩, _, hcon⟩ := hmem
    unfold Signalk.Spec.contribution at hcon
    obtain ⟨pg, hfind, _⟩ := Option.bind_eq_some_iff.mp hcon
    have hpgm := List.mem_of_find?_eq_some hfind
    have hap := (List.find?_eq_some_iff_append.mp hfind).1
    have hap : Signalk.Spec.applies denv (Signalk.toMsg { p with data := order }) d'.repeatingFields kk pg := by
      simpa using hap
    have h1 : pg.2.pgn = v.pgn := by rw [← hpgn]; exact hap.1
    have h2 : v.pgn = 130820 := Decidable.byContradiction fun h => hmap ⟨pg, hpgm, h1, h⟩
    obtain ⟨m1, m2⟩ := Signalk.mem_pairs.mp (show (pg.1, pg.2) ∈ pairs MapTable.maps from hpgm)
    exact fusion_quiet hprints hp (by rw [hpgn, h2]) hperm m1 m2 (by rw [h1, h2]) hap.2.2

/-- Where the fields that start in the first byte end, for the PGNs of the mapping file. -/
theorem mapped_starts : ∀ pg ∈ pairs MapTable.maps, pg.2.pgn ≠ 130820 → ∀ d ∈ pgnList, d.pgn = pg.2.pgn →
    d.pgn = 128275 ∨ d.pgn = 129025 ∨ ∀ (k : Nat) (f : Nmea2k.Field), d.fieldList[k]? = some f →
      Nmea2k.Spec.position d.fieldList k < 8 →
        byteCount f.size ≤ (if d.pgn ∈ [65001, 65002, 65003] then 2 else 1) := by
  have h : pgnList.all (fun d => !((pairs MapTable.maps).any fun pg => pg.2.pgn != 130820 && d.pgn == pg.2.pgn) ||
      (d.pgn == 128275 || d.pgn == 129025 || d.fieldList.zipIdx.all (fun x =>
        decide (8 ≤ Nmea2k.Spec.position d.fieldList x.2) ||
          decide (byteCount x.1.size ≤ (if d.pgn ∈ [65001, 65002, 65003] then 2 else 1))))) = true := by
    decide +kernel
  intro pg hpg hn d hd hp
  have h1 := List.all_eq_true.mp h d hd
  rw [show ((pairs MapTable.maps).any fun pg => pg.2.pgn != 130820 && d.pgn == pg.2.pgn) = true from
    List.any_eq_true.mpr ⟨pg, hpg, by simp [hn, hp]⟩, Bool.not_true, Bool.false_or, Bool.or_eq_true, Bool.or_eq_true,
    beq_iff_eq, beq_iff_eq] at h1
  rcases h1 with (h1 | h1) | h1
  · exact Or.inl h1
  · exact Or.inr (Or.inl h1)
  · refine Or.inr (Or.inr fun k f hf hk => ?_)
    have h2 := List.all_eq_true.mp h1 (f, k) (List.mem_zipIdx_iff_getElem?.mpr hf)
    rw [Bool.or_eq_true, decide_eq_true_eq, decide_eq_true_eq] at h2
    rcases h2 with h2 | h2
    · have h2 : 8 ≤ Nmea2k.Spec.position d.fieldList k := h2
      omega
    · exact h2

theorem log_only : onlyDefinition pgnList 128275 103 Nmea2k.Table.p103 :=
  Nmea2k.onlyB_spec (d := Nmea2k.Table.p103) (by decide +kernel) (by decide +kernel)

theorem position_only : onlyDefinition pgnList 129025 105 Nmea2k.Table.p105 :=
  Nmea2k.onlyB_spec (d := Nmea2k.Table.p105) (by decide +kernel) (by decide +kernel)

/-- Nothing is reported of a message without values. -/
theorem nothing_reported {p : Parsed} (hd : p.data = [(0, .nil)]) {values : List (Str × Value Val)}
    (hr : Reports denv p values) (path : Str) (val : Val) : (path, Value.plain val) ∉ values := by
  intro hmem
  obtain ⟨d', order, hd', hperm, hpl, _⟩ := hr
  rw [hd] at hperm
  have ho : order = [(0, .nil)] := List.perm_singleton.mp hperm
  subst ho
  rw [← Signalk.mem_plainPart, hpl, List.mem_filterMap] at hmem
  obtain ⟨⟨kk, o⟩, hm, hcon⟩ := hmem
  have : o = none := by
    have hm := List.mem_singleton.mp (show (kk, o) ∈ [((0 : Int), (none : Option Val))] from hm)
    exact (Prod.mk.inj hm).2
  subst this
  unfold Signalk.Spec.contribution at hcon
  obtain ⟨pg, _, hcon⟩ := Option.bind_eq_some_iff.mp hcon
  cases hcon

/-- **C118** (one message): of every decoded message, of whatever PGN and of any length but those of `C118_false` and
`C118_false_voltage`, exactly this is reported of its fields: the value of the bits of every entry the message reaches,
under the path the mapping file has for it. -/
theorem C118_field {conv : Int → Nat} (hprints : Signalk.Prints denv)
    (hdec : Iface.Decoded (Nmea2k.shippedEnv conv) v p) (hample : Ample v)
    {values : List (Str × Value Val)} (hr : Reports denv p values) (path : Str) (val : Val) :
    (path, Value.plain val) ∈ values ↔ ∃ i d k, onlyDefinition pgnList v.pgn i d ∧
      EntryOnWire (Nmea2k.shippedEnv conv) v d k = some val ∧ EntryNamed denv (Nmea2k.shippedEnv conv) v d k path := by
  have hpos : 0 < v.data.length := List.length_pos_iff.mpr hample.1
  have hpgn : p.header.pgn = v.pgn := by rw [← hdec.1]; rfl
  have hdata : p.header.data.vis = v.data := by rw [← hdec.1]; rfl
  -- a message shorter than its first field, a date or a latitude
  have short : ∀ {i : Nat} {d : Pgn} {f0 f1 : Nmea2k.Field} {fs : List Nmea2k.Field}, onlyDefinition pgnList v.pgn i d →
      d.fieldList = f0 :: f1 :: fs → 1 ≤ byteCount f1.size →
      ((f0.res = .latitude ∨ f0.res = .longitude) ∧ f0.size = 32 ∨ f0.res = .date ∧ f0.size = 16) →
      v.data.length < byteCount f0.size → d.repeatingFields = 0 →
      ((path, Value.plain val) ∈ values ↔ ∃ i d k, onlyDefinition pgnList v.pgn i d ∧
        EntryOnWire (Nmea2k.shippedEnv conv) v d k = some val ∧
        EntryNamed denv (Nmea2k.shippedEnv conv) v d k path) := by
    intro i d f0 f1 fs ho hfl hs1 hres hlt hrep
    have hp := Nmea2k.short_first (m := p.header) (by rw [hpgn]; exact ho) hfl hs1 hres (by rw [hdata]; exact hample.1)
      (by rw [hdata]; exact hlt) hdec.2
    refine ⟨fun h => absurd h (nothing_reported (by rw [hp]) hr path val), ?_⟩
    rintro ⟨i', e, k, h0, h1, _⟩
    exfalso
    have : i' = i := ho.2.2 i' e h0.1 h0.2.1
    subst this
    have : e = d := by have := h0.1; rw [ho.1] at this; exact (Option.some.inj this).symm
    subst this
    unfold EntryOnWire at h1
    rw [if_neg] at h1
    · cases h1
    · intro hreach
      obtain ⟨f, f1, f2⟩ := hreach 0 (by omega)
      have : entryOf e 0 = some f0 := by
        unfold entryOf entryField
        rw [if_pos (Or.inl hrep), hfl]; rfl
      rw [this] at f1
      cases f1
      omega
  by_cases h1 : v.pgn = 128275 ∧ v.data.length < 2
  · exact short (i := 103) (d := Nmea2k.Table.p103) (by rw [h1.1]; exact log_only) rfl (by decide) (Or.inr (by decide)) h1.2 rfl
  by_cases h2 : v.pgn = 129025 ∧ v.data.length < 4
  · exact short (i := 105) (d := Nmea2k.Table.p105) (by rw [h2.1]; exact position_only) rfl (by decide)
      (Or.inl (by decide)) h2.2 rfl
  refine field_fits hprints hdec (fun ⟨pg, hpg, hpv, hne⟩ d hd hdp k f hf hk => ?_) hr path val
  rcases mapped_starts pg hpg (by rw [hpv]; exact hne) d hd (by rw [hdp, hpv]) with t | t | t
  · have hdd : d = Nmea2k.Table.p103 := by
      obtain ⟨n, hn⟩ := List.getElem?_of_mem hd
      have : n = 103 := log_only.2.2 n d hn t
      subst this
      rw [log_only.1] at hn; exact (Option.some.inj hn).symm
    have hall : Nmea2k.Table.p103.fieldList.zipIdx.all (fun x =>
        decide (8 ≤ Nmea2k.Spec.position Nmea2k.Table.p103.fieldList x.2) || decide (byteCount x.1.size ≤ 2)) = true := by
      decide +kernel
    subst hdd
    have h3 := List.all_eq_true.mp hall (f, k) (List.mem_zipIdx_iff_getElem?.mpr hf)
    rw [Bool.or_eq_true, decide_eq_true_eq, decide_eq_true_eq] at h3
    have : ¬ v.data.length < 2 := fun h => h1 ⟨by rw [← hdp]; exact t, h⟩
    rcases h3 with h3 | h3
    · have h3 : 8 ≤ Nmea2k.Spec.position Nmea2k.Table.p103.fieldList k := h3
      omega
    · have h3 : byteCount f.size ≤ 2 := h3
      omega
  · have hdd : d = Nmea2k.Table.p105 := by
      obtain ⟨n, hn⟩ := List.getElem?_of_mem hd
      have : n = 105 := position_only.2.2 n d hn t
      subst this
      rw [position_only.1] at hn; exact (Option.some.inj hn).symm
    have hall : Nmea2k.Table.p105.fieldList.zipIdx.all (fun x =>
        decide (8 ≤ Nmea2k.Spec.position Nmea2k.Table.p105.fieldList x.2) || decide (byteCount x.1.size ≤ 4)) = true := by
      decide +kernel
    subst hdd
    have h3 := List.all_eq_true.mp hall (f, k) (List.mem_zipIdx_iff_getElem?.mpr hf)
    rw [Bool.or_eq_true, decide_eq_true_eq, decide_eq_true_eq] at h3
    have : ¬ v.data.length < 4 := fun h => h2 ⟨by rw [← hdp]; exact t, h⟩
    rcases h3 with h3 | h3
    · have h3 : 8 ≤ Nmea2k.Spec.position Nmea2k.Table.p105.fieldList k := h3
      omega
    · have h3 : byteCount f.size ≤ 4 := h3
      omega
  · have h3 := t k f hf hk
    split at h3
    · rename_i h4
      have := hample.2 (by rw [← hdp]; exact h4)
      omega
    · omega

/-- The empty depth message. -/
def emptyDepth : RawMessage := ⟨6, 128267, 10, 255, 0, ⟨[], []⟩⟩

/-- It is decoded to zeros, and these are reported. -/
theorem emptyDepth_check : (match Nmea2k.parsePacketN pgnList (Nmea2k.shippedEnv fun _ => 0) emptyDepth 20 with
    | some (.ok p) => match Signalk.delta Signalk.refEnv Signalk.shippedReps MapTable.maps (Signalk.toMsg p) with
      | .ok (some [u]) => decide (p.header = emptyDepth) &&
          decide (Value.plain (.f64 0 (.scale "0.01")) ∈ (u.values.filter fun e => decide (e.1 = Signalk.bs "environment.water.depth")).map Prod.snd)
      | _ => false
    | _ => false) = true := by decide +kernel

/-- **C118** is false of messages shorter than their first field: of an empty depth message (PGN 128267) a depth of
zero is reported, although it reaches no field. -/
theorem C118_false (conv : Int → Nat) : ∃ v p values, Iface.Decoded (Nmea2k.shippedEnv conv) v p ∧
    Reports Signalk.refEnv p values ∧ v.pgn = 128267 ∧ v.data = [] ∧
    (Signalk.bs "environment.water.depth", Value.plain (.f64 0 (.scale "0.01"))) ∈ values ∧
    ∀ d ∈ pgnList, d.pgn = v.pgn → ∀ k, EntryOnWire (Nmea2k.shippedEnv conv) v d k = none := by
  have hc := emptyDepth_check
  split at hc
  · rename_i p hp
    split at hc
    · rename_i u hu
      rw [Bool.and_eq_true, decide_eq_true_eq, decide_eq_true_eq] at hc
      obtain ⟨c1, c2⟩ := hc
      have hne : pgnList ≠ [] := List.cons_ne_nil _ _
      have hf : Nmea2k.first pgnList emptyDepth.pgn = .ok (102, Nmea2k.Table.p102) := by decide +kernel
      have hP : Nmea2k.ParsePacket pgnList (Nmea2k.shippedEnv conv) emptyDepth (.ok p) := by
        refine ⟨20, Eq.trans ?_ hp⟩
        refine Nmea2k.parse_sub (tbl := pgnList) (m := emptyDepth) (env := Nmea2k.shippedEnv conv)
          (env' := Nmea2k.shippedEnv fun _ => 0) rfl rfl hne hf (fun t d ht hd => ?_) 20
        exact Nmea2k.table_sub t d (by omega) hd
      have hdec : Iface.Decoded (Nmea2k.shippedEnv conv) emptyDepth.view p := ⟨by rw [c1], by rw [c1]; exact hP⟩
      obtain ⟨hnd, d, hd⟩ := genuine_facts (p := p) (Or.inl ⟨_, _, hP⟩)
      have hi : Signalk.shippedReps[(Signalk.toMsg p).index]? = some d.repeatingFields := by
        show Signalk.shippedReps[p.index]? = _
        unfold Signalk.shippedReps
        rw [List.getElem?_map, hd]; rfl
      obtain ⟨values, hrep, he⟩ := Signalk.C99_delta hu hnd hi
      refine ⟨emptyDepth.view, p, values, hdec, ⟨d, p.data, hd, List.Perm.refl _, hrep⟩, rfl, rfl, ?_, ?_⟩
      · obtain ⟨e, h1, h2⟩ := List.mem_map.mp c2
        obtain ⟨h1, h3⟩ := List.mem_filter.mp h1
        have h3 := of_decide_eq_true h3
        have hv : u.values = values := by
          split at he
          · cases he
          · have he := Option.some.inj he
            rw [(List.cons.inj he).1]
        rw [← hv, ← h2, ← h3]; exact h1
      · intro d hd hp k
        unfold EntryOnWire
        rw [if_neg]
        intro hr
        obtain ⟨f, f1, f2⟩ := hr 0 (by omega)
        have : 1 ≤ byteCount f.size := by
          have hpg : ∃ pg ∈ pairs MapTable.maps, pg.2.pgn = 128267 := by decide +kernel
          obtain ⟨pg, g1, g2⟩ := hpg
          exact table_sizes pg g1 (by rw [g2]; decide) d hd (by rw [g2]; exact hp) f (entryOf_mem f1)
        have h0 : (RawMessage.view emptyDepth).data.length = 0 := rfl
        rw [h0] at f2
        omega
    · cases hc
  · cases hc

/-- A voltage message (PGN 65001) of one byte. -/
def shortVoltage : RawMessage := ⟨6, 65001, 10, 255, 1, ⟨[230], []⟩⟩

/-- Its byte is reported as the voltage. -/
theorem shortVoltage_check : (match Nmea2k.parsePacketN pgnList (Nmea2k.shippedEnv fun _ => 0) shortVoltage 20 with
    | some (.ok p) => match Signalk.delta Signalk.refEnv Signalk.shippedReps MapTable.maps (Signalk.toMsg p) with
      | .ok (some [u]) => decide (p.header = shortVoltage) &&
          decide (Value.plain (.u64 230) ∈ (u.values.filter fun e => decide (e.1 = Signalk.bs "electric.ac.bus1.phaseC.lineToLineVoltage")).map Prod.snd)
      | _ => false
    | _ => false) = true := by decide +kernel

/-- **C118** is false of one byte of a voltage message (PGN 65001): it is reported as the voltage, although the field has
two bytes. -/
theorem C118_false_voltage (conv : Int → Nat) : ∃ v p values, Iface.Decoded (Nmea2k.shippedEnv conv) v p ∧
    Reports Signalk.refEnv p values ∧ v.pgn = 65001 ∧ v.data = [230] ∧
    (Signalk.bs "electric.ac.bus1.phaseC.lineToLineVoltage", Value.plain (.u64 230)) ∈ values ∧
    ∀ d ∈ pgnList, d.pgn = v.pgn → ∀ k, EntryOnWire (Nmea2k.shippedEnv conv) v d k = none := by
  have hc := shortVoltage_check
  split at hc
  · rename_i p hp
    split at hc
    · rename_i u hu
      rw [Bool.and_eq_true, decide_eq_true_eq, decide_eq_true_eq] at hc
      obtain ⟨c1, c2⟩ := hc
      have hne : pgnList ≠ [] := List.cons_ne_nil _ _
      have hf : Nmea2k.first pgnList shortVoltage.pgn = .ok (5, Nmea2k.Table.p5) := by decide +kernel
      have hP : Nmea2k.ParsePacket pgnList (Nmea2k.shippedEnv conv) shortVoltage (.ok p) := by
        refine ⟨20, Eq.trans ?_ hp⟩
        refine Nmea2k.parse_sub (tbl := pgnList) (m := shortVoltage) (env := Nmea2k.shippedEnv conv)
          (env' := Nmea2k.shippedEnv fun _ => 0) rfl rfl hne hf (fun t d ht hd => ?_) 20
        exact Nmea2k.table_sub t d (by omega) hd
      have hdec : Iface.Decoded (Nmea2k.shippedEnv conv) shortVoltage.view p := ⟨by rw [c1], by rw [c1]; exact hP⟩
      obtain ⟨hnd, d, hd⟩ := genuine_facts (p := p) (Or.inl ⟨_, _, hP⟩)
      have hi : Signalk.shippedReps[(Signalk.toMsg p).index]? = some d.repeatingFields := by
        show Signalk.shippedReps[p.index]? = _
        unfold Signalk.shippedReps
        rw [List.getElem?_map, hd]; rfl
      obtain ⟨values, hrep, he⟩ := Signalk.C99_delta hu hnd hi
      refine ⟨shortVoltage.view, p, values, hdec, ⟨d, p.data, hd, List.Perm.refl _, hrep⟩, rfl, rfl, ?_, ?_⟩
      · obtain ⟨e, h1, h2⟩ := List.mem_map.mp c2
        obtain ⟨h1, h3⟩ := List.mem_filter.mp h1
        have h3 := of_decide_eq_true h3
        have hv : u.values = values := by
          split at he
          · cases he
          · have he := Option.some.inj he
            rw [(List.cons.inj he).1]
        rw [← hv, ← h2, ← h3]; exact h1
      · intro d hd hp k
        unfold EntryOnWire
        rw [if_neg]
        intro hr
        obtain ⟨f, f1, f2⟩ := hr 0 (by omega)
        have : byteCount f.size = 2 := by
          have hall : pgnList.all (fun d => d.pgn != 65001 || decide (d.repeatingFields = 0 ∧
              ∀ f, d.fieldList.head? = some f → byteCount f.size = 2)) = true := by decide +kernel
          have h1 := List.all_eq_true.mp hall d hd
          rw [show (d.pgn != 65001) = false by rw [hp]; rfl, Bool.false_or, decide_eq_true_eq] at h1
          refine h1.2 f ?_
          unfold entryOf entryField at f1
          rw [if_pos (Or.inl h1.1)] at f1
          rw [List.head?_eq_getElem?]; exact f1
        have h0 : (RawMessage.view shortVoltage).data.length = 1 := rfl
        rw [h0] at f2
        omega
    · cases hc
  · cases hc

end

/-! ## The program -/

section
variable {β : Type} [DecidableEq β] {sort : List String → List String} {opts : Opts} {out : Outputs}
  {verbose : Bool} {denv : Signalk.Env Val} {marshal : Nat → List (Signalk.Update Val) → Option β} {conv : Int → Nat}

/-- When the interfaces have handed over all they make of what they received, and a client connected since the first delta
has kept up, then for every message an interface has decoded it has received a delta with the PGN, the source and the values
reported of it; unless there are none. -/
theorem reports_received {parse : RawMessage → GoM Parsed}
    (hparse : ∀ m, Nmea2k.ParsePacket pgnList (Nmea2k.shippedEnv conv) m (parse m))
    (mem : Nat → Nat → List Byte) (g : Nat → Nat)
    (fp : List Nat) (bus : List (Nat × Ev)) (inputs : Nat → Input) {es : List (SysEvent Body β)} (hord : Ordinary es)
    (hall : ∀ i, (readBy i es).map parsedOf = Iface.handed ((inputs i).acts parse mem g fp bus i))
    (hperm : ∀ i, ∀ m ∈ readBy i es, m.body.order.Perm m.body.data)
    {s : Sys Body β} (h : sysExec (shippedProgram sort opts out verbose denv marshal) Sys.init es = some (.ok s))
    (hp : ∀ i, s.pending i = none) (ht : s.todo = []) (hpc : s.ws.pc = .idle) (hw : out.websockets = true)
    {c : Hub.Id} (hc : Hub.Spec.registered c (wsTrace es)) (h0 : before c (wsTrace es) = 0)
    (hin : c ∈ s.ws.conns) (hbuf : (s.ws.chan c).buf = []) {n : Nat} {p : Parsed} {v : MsgView}
    (hpm : p ∈ Iface.handed ((inputs n).acts parse mem g fp bus n)) (hdec : Iface.Decoded (Nmea2k.shippedEnv conv) v p)
    (hmar : ∀ values now, Reports denv p values → marshal now [⟨v.pgn, v.source, values⟩] ≠ none) :
    ∃ values, Reports denv p values ∧
      (values ≠ [] → ∃ now, ∃ b ∈ s.ws.got c, marshal now [⟨v.pgn, v.source, values⟩] = some b) := by
  obtain ⟨taken, h1, h2⟩ := all_received hparse mem g fp bus inputs hord hall hperm h hp ht hpc hw hc h0 hin hbuf
  have hpt : p ∈ taken.map Prod.snd := by
    rw [← h1 n] at hpm
    unfold Canusb.ofPort at hpm
    obtain ⟨x, hx, rfl⟩ := List.mem_map.mp hpm
    exact List.mem_map_of_mem (List.mem_filter.mp hx).1
  obtain ⟨values, hr, hcase⟩ := broadcasts_mem h2 hpt
  refine ⟨values, hr, fun hne => ?_⟩
  have e1 : p.header.pgn = v.pgn := by rw [← hdec.1]; rfl
  have e2 : p.header.source = v.source := by rw [← hdec.1]; rfl
  rw [e1, e2] at hcase
  rcases hcase with h | ⟨now, h | h⟩
  · exact absurd h hne
  · exact absurd h (hmar _ _ hr)
  · exact ⟨now, h⟩

/-- **C118** (nothing is lost): when the interfaces have handed over all they make of what they received, and a client
connected since the first delta has kept up, then for every message an interface has decoded it has received a delta
with the PGN, the source and exactly the values of the bits of its entries; unless there are none. -/
theorem C118_received {parse : RawMessage → GoM Parsed}
    (hparse : ∀ m, Nmea2k.ParsePacket pgnList (Nmea2k.shippedEnv conv) m (parse m)) (hprints : Signalk.Prints denv)
    (mem : Nat → Nat → List Byte) (g : Nat → Nat)
    (fp : List Nat) (bus : List (Nat × Ev)) (inputs : Nat → Input) {es : List (SysEvent Body β)} (hord : Ordinary es)
    (hall : ∀ i, (readBy i es).map parsedOf = Iface.handed ((inputs i).acts parse mem g fp bus i))
    (hperm : ∀ i, ∀ m ∈ readBy i es, m.body.order.Perm m.body.data)
    {s : Sys Body β} (h : sysExec (shippedProgram sort opts out verbose denv marshal) Sys.init es = some (.ok s))
    (hp : ∀ i, s.pending i = none) (ht : s.todo = []) (hpc : s.ws.pc = .idle) (hw : out.websockets = true)
    {c : Hub.Id} (hc : Hub.Spec.registered c (wsTrace es)) (h0 : before c (wsTrace es) = 0)
    (hin : c ∈ s.ws.conns) (hbuf : (s.ws.chan c).buf = []) {n : Nat} {p : Parsed} {v : MsgView}
    (hpm : p ∈ Iface.handed ((inputs n).acts parse mem g fp bus n)) (hdec : Iface.Decoded (Nmea2k.shippedEnv conv) v p)
    (hample : Ample v)
    (hmar : ∀ values now, Reports denv p values → marshal now [⟨v.pgn, v.source, values⟩] ≠ none) :
    ∃ values, (∀ path val, (path, Value.plain val) ∈ values ↔ ∃ i d k, onlyDefinition pgnList v.pgn i d ∧
        EntryOnWire (Nmea2k.shippedEnv conv) v d k = some val ∧ EntryNamed denv (Nmea2k.shippedEnv conv) v d k path) ∧
      (values ≠ [] → ∃ now, ∃ b ∈ s.ws.got c, marshal now [⟨v.pgn, v.source, values⟩] = some b) := by
  obtain ⟨values, hr, h1⟩ := reports_received hparse mem g fp bus inputs hord hall hperm h hp ht hpc hw hc h0 hin hbuf hpm
    hdec hmar
  exact ⟨values, C118_field hprints hdec hample hr, h1⟩

end

end Argo.Main
