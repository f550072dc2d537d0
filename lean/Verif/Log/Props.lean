import Verif.Log.Line
import Verif.Log.Known
import Verif.Json.Bits

set_option autoImplicit false

/-! # C124: the lines of the log -/

namespace Argo.Log

open Argo
open Argo.Nmea2k (Val Pgn DataMap Parsed ParsePacket)
open Argo.Nmea2k.Table (pgnList)
open Argo.Signalk (Str bs Time Stamp)
open Argo.Json (pad ascii Decimal isDigit bs_append)
open Argo.Float

variable {env : Nmea2k.Env} {m : RawMessage}

/-! ## Specification -/

/-- The date, the time of day and the milliseconds (the rest is dropped) of a receipt. -/
def ShowsReceipt (sep : Char) (at_ : Time × ℕ) (t : Str) : Prop :=
  ∃ y mo d h mi se ms, t = ascii (y ++ '-' :: mo ++ '-' :: d ++ sep :: h ++ ':' :: mi ++ ':' :: se ++ '.' :: ms) ∧
    Decimal 4 at_.1.stamp.year.toNat y ∧ Decimal 2 at_.1.stamp.month.toNat mo ∧ Decimal 2 at_.1.stamp.day.toNat d ∧
    Decimal 2 at_.1.stamp.hour.toNat h ∧ Decimal 2 at_.1.stamp.minute.toNat mi ∧ Decimal 2 at_.1.stamp.second.toNat se ∧
    Decimal 3 (at_.2 / 10 ^ 6) ms

/-- A receipt has a year from 0 to 9999 and less than a second of nanoseconds. -/
def Receipt (at_ : Time × ℕ) : Prop := 0 ≤ at_.1.stamp.year ∧ at_.1.stamp.year ≤ 9999 ∧ at_.2 < 10 ^ 9

/-- What a line should say about a message with the definition `d`: when it was received, its header, the description, and for
every entry with a value (in verbose mode for every entry), in their order, its number, the name of its field and its value. -/
structure LineSays (here : Place) (at_ : Time × ℕ) (m : RawMessage) (d : Pgn) (data : DataMap) (verbose : Bool) (l : Line) : Prop where
  stamp : ShowsReceipt 'T' at_ l.stamp
  priority : l.priority = m.priority.toNat
  source : l.source = m.source.toNat
  destination : l.destination = m.destination.toNat
  pgn : l.pgn = m.pgn
  description : l.description = bs d.description
  entries : List.Forall₂ (fun k e => e.1 = k ∧ (∃ f, Nmea2k.Spec.entryOf d k = some f ∧ e.2.1 = bs f.name) ∧ Says here (data.get k) e.2.2)
    ((List.range data.length).filter fun k => verbose || data.get k != .nil) l.entries

/-! ## Proofs -/

theorem receipt_shows (sep : Char) {at_ : Time × ℕ} (h : Receipt at_) : ShowsReceipt sep at_ (receipt sep at_) := by
  obtain ⟨t, ns⟩ := at_
  obtain ⟨h1, h2, h3⟩ := h
  simp only at h1 h2 h3
  obtain ⟨b1, b2, b3, b4⟩ := Json.civil_bounds t.day
  have hc0 : 0 ≤ t.clock := by unfold Time.clock; omega
  have hc1 : t.clock < 86400 := by unfold Time.clock; omega
  have e1 : t.stamp.month = (Signalk.civil t.day).2.1 := rfl
  have e2 : t.stamp.day = (Signalk.civil t.day).2.2 := rfl
  have e3 : t.stamp.hour = t.clock / 3600 := rfl
  have e4 : t.stamp.minute = t.clock / 60 % 60 := rfl
  have e5 : t.stamp.second = t.clock % 60 := rfl
  have hyt : yearText t.stamp.year = pad 4 t.stamp.year.toNat := by
    unfold yearText
    rw [if_neg (by omega), List.nil_append, show t.stamp.year.natAbs = t.stamp.year.toNat by omega]
  refine ⟨pad 4 t.stamp.year.toNat, _, _, _, _, _, _, ?_, Json.pad_decimal (by omega) (by simp only; omega),
    Json.pad_decimal (n := t.stamp.month.toNat) (by omega) (by omega),
    Json.pad_decimal (n := t.stamp.day.toNat) (by omega) (by omega), Json.pad_decimal (n := t.stamp.hour.toNat) (by omega) (by omega),
    Json.pad_decimal (n := t.stamp.minute.toNat) (by omega) (by omega),
    Json.pad_decimal (n := t.stamp.second.toNat) (by omega) (by omega), Json.pad_decimal (n := ns / 10 ^ 6) (by omega) (by omega)⟩
  unfold receipt dateClock
  rw [hyt]

/-- The lines as a list of numbers. -/
theorem lines_eq (d : Pgn) (data : DataMap) (verbose : Bool) (n : ℕ) :
    Nmea2k.Spec.lines d data verbose n =
      ((List.range n).filter fun k => verbose || data.get k != .nil).map fun k => (k, ((Nmea2k.Spec.entryOf d k).map (·.name)).getD "", data.get k) := by
  unfold Nmea2k.Spec.lines
  induction List.range n with
  | nil => rfl
  | cons k l ih =>
    rw [List.flatMap_cons, ih, List.filter_cons]
    by_cases h : data.get k ≠ .nil ∨ verbose = true
    · rw [if_pos h, if_pos]
      · rfl
      · rcases h with h | h
        · simp [h]
        · simp [h]
    · rw [if_neg h, if_neg]
      · rfl
      · simp only [not_or, not_not] at h
        simp [h.1, h.2]

theorem get_cases {p : Parsed} {P : Val → Prop} (h0 : P .nil) (h : ∀ e ∈ p.data, P e.2) (k : ℕ) : P (p.data.get k) := by
  unfold DataMap.get
  cases hf : p.data.find? (fun e => e.1 = k) with
  | none => exact h0
  | some e => exact h e (List.mem_of_find?_eq_some hf)

/-- Every parsed message has a line. -/
theorem C124_total {p : Parsed} (h : ParsePacket pgnList env m (.ok p)) (here : Place) (at_ : Time × ℕ) (verbose : Bool) :
    ∃ d, pgnList[p.index]? = some d ∧
      printText here pgnList p at_ verbose = .ok (line here p at_ d.description (Nmea2k.Spec.lines d p.data verbose p.data.length)) ∧
      ∀ k < p.data.length, ∃ f ∈ d.fieldList, Nmea2k.Spec.entryOf d k = some f := by
  obtain ⟨d, hd, hp⟩ := Nmea2k.C51_shipped h verbose
  refine ⟨d, hd, by rw [printText_eq, hp], ?_⟩
  obtain ⟨d', hd', hN⟩ := Nmea2k.any_result Nmea2k.table_noMustInGroup h
  rw [hd] at hd'
  have : d = d' := Option.some.inj hd'
  subst this
  intro k hk
  exact ⟨_, List.getElem_mem (hN k hk), List.getElem?_eq_getElem (hN k hk)⟩

/-- What is not of argo's making is from the bus. -/
theorem foreign_chars {here : Place} (hl : LocalPlace here) {conv : ℤ → ℕ} {p : Parsed}
    (h : ParsePacket pgnList (Nmea2k.shippedEnv conv) m (.ok p)) {c : Byte} (hc : c = 59 ∨ c = 10) (k : ℕ) :
    c ∈ foreign here (p.data.get k) ↔ ∃ b, p.data.get k = .chars b ∧ c ∈ b := by
  have hk : Known (Nmea2k.shippedEnv conv) (p.data.get k) := get_cases (by intro s hs; cases hs) (parsed_known h) k
  generalize p.data.get k = v at hk
  cases v with
  | chars b => simp [foreign]
  | text s =>
    have ht := List.all_eq_true.mp (shipped_tidy hk rfl)
    simp only [foreign, reduceCtorEq, false_and, exists_false, iff_false]
    intro hm
    have := ht c hm
    rcases hc with rfl | rfl <;> revert this <;> decide
  | unix s =>
    simp only [foreign, reduceCtorEq, false_and, exists_false, iff_false]
    rcases hc with rfl | rfl
    · exact (hl.zone _).1
    · exact (hl.zone _).2
  | clock a b s ns =>
    simp only [foreign, reduceCtorEq, false_and, exists_false, iff_false]
    rcases hc with rfl | rfl
    · exact (hl.zone _).1
    · exact (hl.zone _).2
  | _ => simp [foreign]

theorem forall₂_map {α β γ : Type} {R : α → β → Prop} {f : γ → β} {g : γ → α} {l : List γ} (h : ∀ x ∈ l, R (g x) (f x)) :
    List.Forall₂ R (l.map g) (l.map f) := by
  induction l with
  | nil => exact .nil
  | cons x l ih => exact .cons (h x (by simp)) (ih fun y hy => h y (List.mem_cons_of_mem _ hy))

/-- **C124** (what holds): whoever reads the line of a message finds what was in it, if no text of the bus has a semicolon. -/
theorem C124_partial {here : Place} (hl : LocalPlace here) {conv : ℤ → ℕ} {p : Parsed}
    (h : ParsePacket pgnList (Nmea2k.shippedEnv conv) m (.ok p)) {at_ : Time × ℕ} (hat : Receipt at_) (verbose : Bool)
    (hs : ∀ k b, p.data.get k = .chars b → (59 : Byte) ∉ b) :
    ∃ d t, pgnList[p.index]? = some d ∧ printText here pgnList p at_ verbose = .ok t ∧
      LineSays here at_ m d p.data verbose (readLine t) := by
  obtain ⟨d, hd, hp, hent⟩ := C124_total h here at_ verbose
  refine ⟨d, _, hd, hp, ?_⟩
  obtain ⟨t1, t2, t3⟩ := table_names d (List.mem_of_getElem? hd)
  have hkeys : ∀ l ∈ Nmea2k.Spec.lines d p.data verbose p.data.length, ∃ f ∈ d.fieldList, l.2.1 = f.name ∧ ∃ k, l.2.2 = p.data.get k := by
    intro l hl
    rw [lines_eq] at hl
    obtain ⟨k, hk, rfl⟩ := List.mem_map.mp hl
    obtain ⟨f, hf, he⟩ := hent k (by simpa using (List.mem_filter.mp hk).1)
    exact ⟨f, hf, by simp [he], k, rfl⟩
  have hr := readLine_line (here := here) (p := p) (at_ := at_) t1
    (ls := Nmea2k.Spec.lines d p.data verbose p.data.length)
    (fun l hl => by obtain ⟨f, hf, e, _⟩ := hkeys l hl; rw [e]; exact t3 f hf)
    (fun l hl' => by
      obtain ⟨_, _, _, k, e⟩ := hkeys l hl'
      rw [e, foreign_chars hl h (Or.inl rfl)]
      rintro ⟨b, hb, hm⟩
      exact hs k b hb hm)
  rw [hr]
  have hh : p.header = m := (Nmea2k.C49_shape h).1
  refine ⟨receipt_shows 'T' hat, by rw [hh], by rw [hh], by rw [hh], by rw [hh], rfl, ?_⟩
  simp only
  rw [lines_eq, List.map_map]
  have := forall₂_map (g := fun k : ℕ => k) (f := (fun l : ℕ × String × Val => (l.1, bs l.2.1, valueText here l.2.2)) ∘
      fun k => (k, ((Nmea2k.Spec.entryOf d k).map (·.name)).getD "", p.data.get k))
    (R := fun k e => e.1 = k ∧ (∃ f, Nmea2k.Spec.entryOf d k = some f ∧ e.2.1 = bs f.name) ∧ Says here (p.data.get k) e.2.2)
    (l := (List.range p.data.length).filter fun k => verbose || p.data.get k != .nil) (by
      intro k hk
      obtain ⟨f, hf, he⟩ := hent k (by simpa using (List.mem_filter.mp hk).1)
      refine ⟨rfl, ⟨f, he, by simp [he]⟩, ?_⟩
      exact value_says hl (get_cases trivial (parsed_onBus table_ok h) k) (get_cases trivial (Json.parsed_small h) k))
  rwa [List.map_id'] at this

/-- **C124** (one line): the text of a message is one line unless a text of the bus has a line feed. -/
theorem C124_one_line {here : Place} (hl : LocalPlace here) {conv : ℤ → ℕ} {p : Parsed}
    (h : ParsePacket pgnList (Nmea2k.shippedEnv conv) m (.ok p)) (at_ : Time × ℕ) (verbose : Bool) :
    ∃ t, printText here pgnList p at_ verbose = .ok t ∧
      ((10 : Byte) ∈ t ↔ ∃ k < p.data.length, ∃ b, p.data.get k = .chars b ∧ (10 : Byte) ∈ b) := by
  obtain ⟨d, hd, hp, hent⟩ := C124_total h here at_ verbose
  refine ⟨_, hp, ?_⟩
  obtain ⟨t1, t2, t3⟩ := table_names d (List.mem_of_getElem? hd)
  have hodd : Odd 10 := ⟨by decide, by decide +kernel⟩
  have hhead : (10 : Byte) ∉ heading p at_ d.description := by
    unfold heading
    simp only [List.mem_append, List.mem_cons]
    rintro (x | x | x | x | x | x | x | x | x | x | x)
    · exact receipt_no 'T' (by decide) at_ ⟨by decide, by decide +kernel⟩ x
    · cases x
    · exact digits_no (by decide) _ x
    · cases x
    · exact digits_no (by decide) _ x
    · cases x
    · exact digits_no (by decide) _ x
    · cases x
    · exact digits_no (by decide) _ x
    · cases x
    · have := List.all_eq_true.mp t2 _ x; revert this; decide
  have hbody : ∀ l ∈ Nmea2k.Spec.lines d p.data verbose p.data.length, ((10 : Byte) ∈ body here l ↔ (10 : Byte) ∈ foreign here l.2.2) := by
    intro l hl
    rw [lines_eq] at hl
    obtain ⟨k, hk, rfl⟩ := List.mem_map.mp hl
    obtain ⟨f, hf, he⟩ := hent k (by simpa using (List.mem_filter.mp hk).1)
    rw [← value_no hodd]
    unfold body
    simp only [he, Option.map_some, Option.getD_some, List.cons_append, List.mem_append, List.mem_cons]
    constructor
    · rintro (x | x | x | x | x | x | x | x)
      · cases x
      · exact absurd x (digits_no (by decide) _)
      · cases x
      · exfalso; have := List.all_eq_true.mp (t3 f hf) _ x; revert this; decide
      · cases x
      · cases x
      · cases x
      · exact x
    · intro x; simp [x]
  constructor
  · intro hm
    unfold line at hm
    rcases List.mem_append.mp hm with hm | hm
    · exact absurd hm hhead
    · split at hm
      · cases hm
      · rcases List.mem_cons.mp hm with hm | hm
        · cases hm
        · rcases mem_intercalate hm with hm | ⟨t, ht, hm⟩
          · cases List.mem_singleton.mp hm
          · obtain ⟨l, hl', rfl⟩ := List.mem_map.mp ht
            have hf := (hbody l hl').mp hm
            rw [lines_eq] at hl'
            obtain ⟨k, hk, rfl⟩ := List.mem_map.mp hl'
            exact ⟨k, by simpa using (List.mem_filter.mp hk).1, (foreign_chars hl h (Or.inr rfl) k).mp hf⟩
  · rintro ⟨k, hk, b, hb, hm⟩
    have hl' : (k, ((Nmea2k.Spec.entryOf d k).map (·.name)).getD "", p.data.get k) ∈ Nmea2k.Spec.lines d p.data verbose p.data.length := by
      rw [lines_eq]
      exact List.mem_map.mpr ⟨k, List.mem_filter.mpr ⟨List.mem_range.mpr hk, by rw [hb]; simp⟩, rfl⟩
    have hin := (hbody _ hl').mpr (by simp only [hb, foreign]; exact hm)
    have key : ∀ (l : List Str) (t : Str), t ∈ l → (10 : Byte) ∈ t → (10 : Byte) ∈ ([59] : Str).intercalate l := by
      intro l t
      induction l with
      | nil => intro h; cases h
      | cons x l ih =>
        intro ht hm
        cases l with
        | nil => rw [List.intercalate_singleton]; rw [List.mem_singleton] at ht; rwa [← ht]
        | cons y l =>
          rw [List.intercalate_cons_cons]
          rcases List.mem_cons.mp ht with rfl | ht
          · exact List.mem_append_left _ (List.mem_append_left _ hm)
          · exact List.mem_append_right _ (ih ht hm)
    unfold line
    apply List.mem_append_right
    rw [if_neg (List.ne_nil_of_mem hl')]
    exact List.mem_cons_of_mem _ (key _ _ (List.mem_map.mpr ⟨_, hl', rfl⟩) hin)

end Argo.Log
