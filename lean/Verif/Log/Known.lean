import Verif.Float.Decode

set_option autoImplicit false

/-! # Texts of messages that are not from the bus are those of the tables -/

namespace Argo.Log

open Argo Argo.Nmea2k
open Argo.Signalk (Str bs)

variable {tbl : List Pgn} {env : Env} {m : RawMessage}

/-- A text is one that a table of the program has. -/
def Known (env : Env) (v : Val) : Prop :=
  ∀ s, v = .text s → (∃ n x, s = env.lookup n x) ∨ (∃ x, s = env.company x) ∨ ∃ n a b, s = env.sub n a b

theorem extractNumber_known {f : Field} {a b o w : ℕ} {v : Val} (h : extractNumber m f a b o w = .ok (some v)) : Known env v := by
  obtain ⟨n, rfl, _⟩ := Float.extractNumber_form h
  intro s hs
  unfold numberValue at hs
  repeat' split at hs
  all_goals cases hs

theorem decodeField_known {d : Pgn} {dm : DataMap} {f : Field} {a b o w : ℕ} {v : Val}
    (h : decodeField env m d dm f a b o w = .ok (some v)) : Known env v := by
  unfold decodeField at h
  split at h
  all_goals first
    | exact extractNumber_known h
    | skip
  all_goals
    try simp only [extractDate, extractTime, extract6BitASCII, extractStringLZ, extractString, extractLatLon, extractScaled16, bind,
      Except.bind, pure, Except.pure] at h
  all_goals
    try unfold extractLookupField at h
    try unfold extractManufacturer at h
    try unfold extractLookup2 at h
    try unfold extractLookupSubfield at h
    try simp only [bind, Except.bind, pure, Except.pure] at h
    repeat' split at h
  all_goals first
    | (cases h; done)
    | (injection h with h; injection h with h; subst h; intro s hs; cases hs; done)
    | (injection h with h; injection h with h; subst h; intro s hs; injection hs with hs; subst hs
       first
         | exact Or.inl ⟨_, _, rfl⟩
         | exact Or.inr (Or.inl ⟨_, rfl⟩)
         | exact Or.inr (Or.inr ⟨_, _, _, rfl⟩))
    | (injection h with h; injection h with h; subst h; exact extractNumber_known (by assumption))

theorem set_known {dm : DataMap} (h : ∀ e ∈ dm, Known env e.2) (k : ℕ) {v : Val} (hv : Known env v) :
    ∀ e ∈ dm.set k v, Known env e.2 := by
  unfold DataMap.set
  intro e he
  split at he
  · obtain ⟨x, hx, rfl⟩ := List.mem_map.mp he
    split
    · exact hv
    · exact h x hx
  · rcases List.mem_append.mp he with he | he
    · exact h e he
    · rw [List.mem_singleton.mp he]; exact hv

/-- Whatever is decoded, its texts are those of the tables. -/
theorem parsed_known {p : Parsed} (h : ParsePacket tbl env m (.ok p)) : ∀ e ∈ p.data, Known env e.2 := by
  have hne : tbl ≠ [] := by
    rintro rfl
    obtain ⟨n, hn⟩ := h
    simp [parsePacketN, first, firstFrom] at hn
  obtain ⟨i, d, hf, hd, _⟩ := C33_first tbl m.pgn hne
  obtain ⟨jj, q, hl, _, _⟩ := C33_last tbl m.pgn hne
  rw [ParsePacket_iff hf hl] at h
  obtain ⟨n, hn⟩ := h
  obtain ⟨s', hP, hok, _⟩ := run_inv (fun s => ∀ e ∈ s.data, Known env e.2) (fun s s' hs hst => by
    obtain ⟨field, r, i', d', index', _, hfi, _, _, hr, hsel, rfl⟩ := step_inl hst
    refine set_known hs _ ?_
    cases r with
    | none => intro s hs; cases hs
    | some v => exact decodeField_known hr)
    (by intro e he; cases he) hn
  obtain ⟨rfl, _⟩ := step_inr (hok p rfl)
  exact hP

/-! ## The tables -/

/-- No semicolon, no line feed. -/
def tidy (s : String) : Bool := (bs s).all fun b => b != 59 && b != 10

theorem tables_tidy : (Lookups.tables.all fun e => e.2.all fun x => tidy x.2) = true := by decide +kernel

theorem company_tidy : (Lookups.lookupCompanyCode.all fun x => tidy x.2) = true := by decide +kernel

theorem functions_tidy : (Lookups.lookupDeviceFunction.all fun e => e.2.all fun x => tidy x.2) = true := by decide +kernel

theorem tidy_nameIn {t : List (ℕ × String)} (h : t.all (fun x => tidy x.2) = true) (k : ℕ) : tidy (nameIn t k) = true := by
  unfold nameIn
  cases hf : t.find? (fun e => decide (e.1 = k)) with
  | none => decide +kernel
  | some e => exact List.all_eq_true.mp h e (List.mem_of_find?_eq_some hf)

theorem shipped_tidy {conv : ℤ → ℕ} {v : Val} (h : Known (shippedEnv conv) v) {s : String} (hs : v = .text s) : tidy s = true := by
  rcases h s hs with ⟨n, x, rfl⟩ | ⟨x, rfl⟩ | ⟨n, a, b, rfl⟩
  · show tidy (nameIn _ x) = true
    apply tidy_nameIn
    cases hf : Lookups.tables.find? (fun e => e.1 = n) with
    | none => rfl
    | some e => exact List.all_eq_true.mp tables_tidy e (List.mem_of_find?_eq_some hf)
  · exact tidy_nameIn company_tidy x
  · unfold shippedEnv
    simp only
    split
    · cases hf : Lookups.lookupDeviceFunction.find? (fun e => e.1 = conv (-10 * a)) with
      | none => rfl
      | some e =>
        have he := List.all_eq_true.mp functions_tidy e (List.mem_of_find?_eq_some hf)
        simp only [Option.map_some, Option.getD_some]
        cases hg : e.2.find? (fun e => (e.1 : ℤ) = -10 * (b : ℤ)) with
        | none => decide +kernel
        | some x =>
          simp only [Option.map_some, Option.getD_some]
          exact List.all_eq_true.mp he x (List.mem_of_find?_eq_some hg)
    · decide +kernel

end Argo.Log
