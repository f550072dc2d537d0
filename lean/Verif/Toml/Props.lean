import Verif.Toml.Names
import Verif.Config.Page

set_option autoImplicit false

/-!
# C130: the configuration file as text

C83 says that a configuration comes back after a restart, provided the file says what was written.  Here the file is bytes:
what `WriteConfig` writes is read with the reader of `Verif/Toml/Spec.lean`.
-/

namespace Argo.Toml

open Argo Config Signalk

/-! ## Specification -/

/-- A configuration whose file reads as what was saved: texts have no NUL (for a strict reader: no control characters but tab
and line ends), numbers have 64 bits, every interface has a name without backslash and without characters that cannot stand in
a string, and speeds are below 2^63.  `unique` holds of every Go map. -/
structure Savable (strict : Bool) (c : Conf) : Prop where
  texts : ∀ s t, inToml s = true → c.val s = .str t → ∀ b ∈ t, if strict then 32 ≤ b.toNat ∨ b = 9 ∨ b = 10 ∨ b = 13 else b ≠ 0
  numbers : ∀ s n, inToml s = true → c.val s = .int n → -2 ^ 63 ≤ n ∧ n < 2 ^ 63
  named : ∀ e ∈ c.interfaces, e.1 ≠ []
  names : ∀ e ∈ c.interfaces, ∀ b ∈ e.1, b ≠ 92 ∧ if strict then 32 ≤ b.toNat else b ≠ 0 ∧ b ≠ 10 ∧ b ≠ 13
  members : ∀ e ∈ c.interfaces, (∀ b ∈ e.2.path ++ e.2.type, if strict then 32 ≤ b.toNat ∨ b = 9 ∨ b = 10 ∨ b = 13 else b ≠ 0) ∧
    e.2.speed < 2 ^ 63
  unique : (c.interfaces.map Prod.fst).Nodup

/-- A setting as a value of TOML. -/
def valueOf : Scalar → Value
  | .str s => .str s
  | .int n => .int n
  | .bool b => .bool b

/-- The files and the configuration of the running program. -/
abbrev Machine := Conf × FS

/-- The program starts on its file. -/
def boot (fs : FS) : Machine := ((readFile fs (bs "argo.conf")).1, fs)

/-- ui_server.go:95-116: a POST to /admin, with the given body (`none`: not JSON). -/
def post (nil : Conf → Bool) (m : Machine) (p : Option Doc) : Machine :=
  match (admin m.1 p).2 with
  | none => ((admin m.1 p).1, m.2)
  | some _ => ((admin m.1 p).1, save (nil (admin m.1 p).1) (admin m.1 p).1 m.2)

/-! ## Proofs -/

theorem savable_settings {strict : Bool} {c : Conf} (h : Savable strict c) : SoundSettings strict c := by
  intro s hs
  cases hv : c.val s with
  | str t => exact h.texts s t hs hv
  | int n => exact h.numbers s n hs hv
  | bool b => trivial

theorem savable_members {strict : Bool} {c : Conf} (h : Savable strict c) : ∀ e ∈ c.interfaces, SoundInterface strict e.2 := by
  intro e he
  have := h.members e he
  exact ⟨fun b hb => this.1 b (by simp [hb]), fun b hb => this.1 b (by simp [hb]), this.2⟩

theorem keeps_iff (strict : Bool) (b : UInt8) : keeps strict b ↔ (b ≠ 92 ∧ if strict then 32 ≤ b.toNat else b ≠ 0 ∧ b ≠ 10 ∧ b ≠ 13) := by
  unfold keeps banned
  cases strict <;> simp [and_assoc]

theorem savable_names {strict : Bool} {c : Conf} (h : Savable strict c) : ∀ e ∈ c.interfaces, ∀ b ∈ e.1, keeps strict b :=
  fun e he b hb => (keeps_iff strict b).2 (h.names e he b hb)

theorem savable_no_newline {strict : Bool} {c : Conf} (h : Savable strict c) : ∀ e ∈ c.interfaces, (10 : UInt8) ∉ e.1 := by
  intro e he hb
  have := savable_names h e he 10 hb
  revert this
  unfold keeps
  cases strict <;> decide

theorem read_saved (strict nil : Bool) {c : Conf} (h : Savable strict c) :
    ∃ t, configText nil c = some t ∧ read strict t = some (tables (configSays nil own c ++ [.nothing]), values [] (configSays nil own c ++ [.nothing])) := by
  refine ⟨joined (configLines nil c), ?_, ?_⟩
  · rw [configText_eq, if_neg]
    simp only [List.any_eq_true, decide_eq_true_eq, not_exists, not_and]
    exact h.named
  · unfold read
    rw [lines_joined _ (oneLine_config nil c (savable_no_newline h)),
      allLines_config strict nil own c (savable_settings h) (savable_members h)
        (fun e he => line_sub strict e.1 (h.named e he) (savable_names h e he))]
    simp only
    rw [if_pos (consistent_config nil c h.unique)]

/-- **C130** (the file): for every configuration that can be saved, WriteConfig succeeds, and the text it writes is TOML that
says exactly this: every setting has its value under its key, every interface has a table with its three members, and nothing
else. -/
theorem C130_file_partial (strict nil : Bool) {c : Conf} (h : Savable strict c) :
    ∃ t ts vs, configText nil c = some t ∧ read strict t = some (ts, vs) ∧
      (∀ p v, (p, v) ∈ vs ↔ (∃ s, inToml s = true ∧ p = place s ∧ v = valueOf (c.val s)) ∨
        ∃ n i, (n, i) ∈ c.interfaces ∧ ((p = [bs "Interfaces", n, bs "Path"] ∧ v = .str i.path) ∨
          (p = [bs "Interfaces", n, bs "Type"] ∧ v = .str i.type) ∨ (p = [bs "Interfaces", n, bs "Speed"] ∧ v = .int i.speed))) ∧
      (∀ n, [bs "Interfaces", n] ∈ ts ↔ n ∈ c.interfaces.map Prod.fst) := by
  obtain ⟨t, ht, hr⟩ := read_saved strict nil h
  refine ⟨t, _, _, ht, hr, ?_, ?_⟩
  · intro p v
    rw [values_config]
    have hset : ∀ l, (p, v) ∈ settingVals c l ↔ ∃ s ∈ l, p = place s ∧ v = valueOf (c.val s) := by
      intro l
      have hv : ∀ x, toValue x = valueOf x := by intro x; cases x <;> rfl
      simp only [settingVals, List.mem_map, Prod.mk.injEq, hv]
      constructor
      · rintro ⟨s, hs, rfl, rfl⟩; exact ⟨s, hs, rfl, rfl⟩
      · rintro ⟨s, hs, rfl, rfl⟩; exact ⟨s, hs, rfl, rfl⟩
    have hif : (p, v) ∈ ifVals own c.interfaces ↔ ∃ n i, (n, i) ∈ c.interfaces ∧ ((p = [bs "Interfaces", n, bs "Path"] ∧ v = .str i.path) ∨
          (p = [bs "Interfaces", n, bs "Type"] ∧ v = .str i.type) ∨ (p = [bs "Interfaces", n, bs "Speed"] ∧ v = .int i.speed)) := by
      simp only [ifVals, List.mem_flatMap, (perm_sorted c.interfaces).mem_iff, interfaceVals, own, List.cons_append, List.nil_append, List.mem_cons,
        Prod.mk.injEq, List.not_mem_nil, or_false]
      constructor
      · rintro ⟨⟨n, i⟩, he, hh⟩; exact ⟨n, i, he, hh⟩
      · rintro ⟨n, i, he, hh⟩; exact ⟨⟨n, i⟩, he, hh⟩
    simp only [List.mem_append, hset, hif]
    constructor
    · rintro ((⟨s, hs, hp⟩ | hh) | ⟨s, hs, hp⟩)
      · exact Or.inl ⟨s, (inToml_mem s (settings_all s)).2 (by simp [hs]), hp⟩
      · exact Or.inr hh
      · exact Or.inl ⟨s, (inToml_mem s (settings_all s)).2 (by simp [hs]), hp⟩
    · rintro (⟨s, hs, hp⟩ | hh)
      · rcases List.mem_append.mp ((inToml_mem s (settings_all s)).1 hs) with hs | hs
        · exact Or.inl (Or.inl ⟨s, hs, hp⟩)
        · exact Or.inr ⟨s, hs, hp⟩
      · exact Or.inl (Or.inr hh)
  · intro n
    rw [tables_config]
    have hmem : [bs "Interfaces", n] ∈ (sorted c.interfaces).map (fun e => own e.1) ↔ n ∈ c.interfaces.map Prod.fst := by
      simp only [List.mem_map, (perm_sorted c.interfaces).mem_iff, own, List.cons.injEq, and_true, true_and]
    simp only [List.mem_append, List.mem_cons, List.cons.injEq, reduceCtorEq, and_false, List.not_mem_nil, or_false, false_or]
    split_ifs with hn
    · simp [hn.2]
    · rw [List.mem_cons, hmem]
      simp

/-- What the program makes of the file it saved. -/
theorem fileDoc_saved (nil : Bool) {c : Conf} (h : Savable false c) :
    ∃ t d, configText nil c = some t ∧ fileDoc (some t) = some d ∧ d.val = (written c).val ∧ d.interfaces.Perm c.interfaces := by
  obtain ⟨t, ht, hr⟩ := read_saved false nil h
  have hs : ((sorted c.interfaces).map Prod.fst).Nodup := ((perm_sorted _).map _).nodup_iff.2 h.unique
  have hnames : (tables (configSays nil own c ++ [.nothing])).filterMap nameIn = (sorted c.interfaces).map Prod.fst := by
    rw [tables_config]
    have h1 : nameIn [bs "Server"] = none ∧ nameIn [bs "Mqtt"] = none ∧ nameIn [bs "Interfaces"] = none ∧ nameIn [bs "Vessel"] = none :=
      ⟨rfl, rfl, rfl, rfl⟩
    have h2 : ∀ k, nameIn (own k) = some k := by
      intro k
      simp only [nameIn, own, lower_names.1, if_true]
    rw [List.filterMap_append, List.filterMap_append]
    have h3 : [[bs "Server"], [bs "Mqtt"]].filterMap nameIn = [] := by simp [h1]
    have h4 : [[bs "Vessel"]].filterMap nameIn = [] := by simp [h1]
    rw [h3, h4]
    split_ifs with hn
    · rw [hn.2]; rfl
    · rw [List.filterMap_cons_none h1.2.2.1, List.filterMap_map]
      have : (nameIn ∘ fun e : Str × Interface => own e.1) = fun e => some e.1 := by funext e; exact h2 e.1
      rw [this]
      simp
  have hif : interfaces (values [] (configSays nil own c ++ [.nothing])) ((sorted c.interfaces).map Prod.fst) = some (sorted c.interfaces) := by
    rw [values_config]
    exact interfaces_own c (sorted c.interfaces) hs (fun e he => (h.members e ((perm_sorted _).mem_iff.1 he)).2) _ (fun e he => he)
  refine ⟨t, ⟨(written c).val, sorted c.interfaces⟩, ht, ?_, rfl, perm_sorted _⟩
  unfold fileDoc
  simp only [hr, docOf, hnames, hs.dedup, hif]
  congr 2
  funext s
  rw [values_config]
  exact setting_config c c.interfaces s

/-- A configuration that was read at the start: a setting with the zero value has no other default. -/
theorem zero_default (d : Option Doc) (posts : List (Option Doc)) (s : Setting) (hs : inToml s = true)
    (h : (posts.foldl (fun c p => (admin c p).1) (readConfig d).1).val s = zeroOf s) : defaultVal s = zeroOf s := by
  have h0 : (readConfig d).1.val s = zeroOf s → defaultVal s = zeroOf s := by
    intro h
    cases hok : (readConfig d).2 with
    | false => rw [(C73_error d).2 hok] at h; exact h
    | true =>
      cases d with
      | none => simp [readConfig] at hok
      | some d =>
        rw [(C73_value d hok).1 s hs] at h
        split at h
        · split_ifs at h with h1
          · exact h
          · exact absurd h h1
        · exact h
  by_cases hz : (readConfig d).1.val s = zeroOf s
  · exact h0 hz
  · exact absurd h (by rw [C75_sticky _ posts s hz]; exact hz)

/-- The running configuration and the file after some posts: unless nothing was saved, the file is that of the configuration. -/
theorem posts_machine (nil : Conf → Bool) (m : Machine) (posts : List (Option Doc)) :
    let m' := posts.foldl (post nil) m
    m'.1 = posts.foldl (fun c p => (admin c p).1) m.1 ∧
      ((m'.1 = m.1 ∧ m'.2 (bs "argo.conf") = m.2 (bs "argo.conf")) ∨
        ∀ t, configText (nil m'.1) m'.1 = some t → m'.2 (bs "argo.conf") = some t) := by
  have hkeep : ∀ c p, (admin c p).2 = none → (admin c p).1 = c := by
    intro c p h
    unfold admin at h ⊢
    split at h
    · rfl
    · split at h
      · rename_i hd; simp [hd]
      · cases h
  suffices H : ∀ (posts : List (Option Doc)) (m0 : Machine),
      ((m0.1 = m.1 ∧ m0.2 (bs "argo.conf") = m.2 (bs "argo.conf")) ∨
        ∀ t, configText (nil m0.1) m0.1 = some t → m0.2 (bs "argo.conf") = some t) →
      (posts.foldl (post nil) m0).1 = posts.foldl (fun c p => (admin c p).1) m0.1 ∧
      (((posts.foldl (post nil) m0).1 = m.1 ∧ (posts.foldl (post nil) m0).2 (bs "argo.conf") = m.2 (bs "argo.conf")) ∨
        ∀ t, configText (nil (posts.foldl (post nil) m0).1) (posts.foldl (post nil) m0).1 = some t →
          (posts.foldl (post nil) m0).2 (bs "argo.conf") = some t) from H posts m (Or.inl ⟨rfl, rfl⟩)
  intro posts
  induction posts with
  | nil => exact fun m0 h => ⟨rfl, h⟩
  | cons p ps ih =>
    intro m0 h0
    have h1 : (post nil m0 p).1 = (admin m0.1 p).1 := by unfold post; split <;> rfl
    have h2 : ((post nil m0 p).1 = m.1 ∧ (post nil m0 p).2 (bs "argo.conf") = m.2 (bs "argo.conf")) ∨
        ∀ t, configText (nil (post nil m0 p).1) (post nil m0 p).1 = some t → (post nil m0 p).2 (bs "argo.conf") = some t := by
      cases hs : (admin m0.1 p).2 with
      | none =>
        have : post nil m0 p = m0 := by
          unfold post
          rw [hs]
          exact Prod.ext (hkeep _ _ hs) rfl
        rw [this]
        exact h0
      | some d =>
        right
        intro t ht
        rw [h1] at ht
        unfold post
        rw [hs]
        simp only [save, writeConfig, ht]
        exact if_pos rfl
    obtain ⟨i1, i2⟩ := ih (post nil m0 p) h2
    refine ⟨?_, i2⟩
    simp only [List.foldl_cons]
    rw [i1, h1]

/-- **C130** (restart): the program starts on a file that it can read; whatever is then posted to /admin, if the running
configuration is one that can be saved, then a restart succeeds and reads every setting that the file holds, and the interfaces,
as they were running. -/
theorem C130_restart_partial (nil : Conf → Bool) (fs : FS) (h : (readFile fs (bs "argo.conf")).2 = true) (posts : List (Option Doc)) :
    let m := posts.foldl (post nil) (boot fs)
    Savable false m.1 →
      (readFile m.2 (bs "argo.conf")).2 = true ∧
      (∀ s, inToml s = true → (boot m.2).1.val s = m.1.val s) ∧ (boot m.2).1.interfaces.Perm m.1.interfaces := by
  intro m hm
  obtain ⟨h1, h2⟩ := posts_machine nil (boot fs) posts
  rcases h2 with ⟨hc, hf⟩ | hf
  · have : readFile m.2 (bs "argo.conf") = readFile fs (bs "argo.conf") := by
      unfold readFile
      exact congrArg (fun x => readConfig (fileDoc x)) hf
    refine ⟨by rw [this]; exact h, fun s _ => ?_, ?_⟩
    · unfold boot; rw [this]
      have : m.1 = (readFile fs (bs "argo.conf")).1 := hc
      rw [this]
    · unfold boot; rw [this]
      have : m.1 = (readFile fs (bs "argo.conf")).1 := hc
      rw [this]
  · obtain ⟨t, d, ht, hd, hval, hperm⟩ := fileDoc_saved (nil m.1) hm
    have hfile : m.2 (bs "argo.conf") = some t := hf t ht
    have hread : readFile m.2 (bs "argo.conf") = readConfig (some d) := by unfold readFile; rw [hfile, hd]
    have hty : WellTyped m.1 := by
      have : m.1 = posts.foldl (fun c p => (admin c p).1) (readConfig (fileDoc (fs (bs "argo.conf")))).1 := h1
      rw [this]
      exact reachable_typed _ posts
    have hok : (readConfig (some d)).2 = true := by
      by_contra hc
      rw [Bool.not_eq_true] at hc
      obtain ⟨s, v, hv, hs, ht⟩ := ((C73_error (some d)).1.1 hc) d rfl
      rw [hval] at hv
      simp only [written, hs, if_true, Option.some.injEq] at hv
      rw [← hv, hty s] at ht
      cases ht
    have hv := C73_value d hok
    refine ⟨by rw [hread]; exact hok, fun s hs => ?_, ?_⟩
    · unfold boot
      rw [hread, hv.1 s hs, hval]
      simp only [written, hs, if_true]
      split_ifs with hz
      · rw [hz]
        refine zero_default (fileDoc (fs (bs "argo.conf"))) posts s hs ?_
        rw [← hz]
        exact congrArg (fun c => Conf.val c s) h1.symm
      · rfl
    · unfold boot
      rw [hread, hv.2.2]
      exact hperm

/-! ## Interfaces that do not come back -/

/-- A text with a line that is not TOML is not TOML. -/
theorem read_none (strict nil : Bool) (c : Conf) (hn : ∀ e ∈ c.interfaces, (10 : UInt8) ∉ e.1) (l : Str) (hl : l ∈ configLines nil c)
    (h : line strict l = none) : read strict (joined (configLines nil c)) = none := by
  unfold read
  rw [lines_joined _ (oneLine_config nil c hn), allLines_none strict _ l (by simp [hl]) h]

theorem mem_interfaceLines (nil : Bool) (c : Conf) (e : Str × Interface) (he : e ∈ c.interfaces) (l : Str) (hl : l ∈ interfaceLines e) :
    l ∈ configLines nil c := by
  unfold configLines interfacesLines
  rw [if_neg (by rintro ⟨_, h⟩; rw [h] at he; simp at he)]
  simp only [List.mem_append, List.mem_flatMap]
  exact Or.inl (Or.inr (Or.inr ⟨e, (perm_sorted _).mem_iff.2 he, hl⟩))

theorem perm_sum {a b : List Nat} (h : a.Perm b) : a.sum = b.sum := by
  induction h with
  | nil => rfl
  | cons x _ ih => simp [ih]
  | swap x y l => simp; omega
  | trans _ _ h1 h2 => rw [h1, h2]

theorem sublist_lengths {a b : List Str} (h : a.Sublist b) : (a.map List.length).sum ≤ (b.map List.length).sum := by
  induction h with
  | slnil => simp
  | cons x _ ih => simp; omega
  | cons_cons x _ ih => simp; omega

/-- **C130** (backslashes): if one of the interfaces has a backslash in its name, then, whatever else the configuration is, its
interfaces do not come back: the saved file is not TOML, or it is not accepted, or the interfaces it names are others. -/
theorem C130_backslash_false (nil : Bool) (c : Conf) (t : Str) (ht : configText nil c = some t)
    (hn : ∀ e ∈ c.interfaces, (10 : UInt8) ∉ e.1) (hb : ∃ e ∈ c.interfaces, (92 : UInt8) ∈ e.1)
    (hset : ∀ s, inToml s = true → Sound false (c.val s)) (hi : ∀ e ∈ c.interfaces, SoundInterface false e.2) :
    ∀ d, fileDoc (some t) = some d → ¬ d.interfaces.Perm c.interfaces := by
  intro d hd hp
  rw [configText_eq] at ht
  split_ifs at ht with hany
  have ht := (Option.some.inj ht).symm
  subst ht
  simp only [List.any_eq_true, decide_eq_true_eq, not_exists, not_and] at hany
  unfold fileDoc at hd
  simp only at hd
  cases hr : read false (joined (configLines nil c)) with
  | none => simp [hr] at hd
  | some r =>
    simp only [hr] at hd
    have hlines : ∀ e ∈ c.interfaces, ∃ s q, line false (subLine e.1) = some (.table (bs "Interfaces" :: s :: q)) ∧ s.length ≤ e.1.length ∧
        ((92 : UInt8) ∈ e.1 → s.length < e.1.length) := by
      intro e he
      cases hl : line false (subLine e.1) with
      | none =>
        rw [read_none false nil c hn _ (mem_interfaceLines nil c e he _ (by simp [interfaceLines])) hl] at hr
        cases hr
      | some l =>
        obtain ⟨s, q, rfl, h1, h2⟩ := header_shrinks false e.1 (hany e he) l hl
        exact ⟨s, q, rfl, h1, h2⟩
    -- the headers as they are read
    let head : Str → List Str := fun k => match line false (subLine k) with
      | some (.table p) => p
      | _ => []
    have hhead : ∀ e ∈ c.interfaces, line false (subLine e.1) = some (.table (head e.1)) := by
      intro e he
      obtain ⟨s, q, hl, _⟩ := hlines e he
      simp only [head, hl]
    have hall := allLines_config false nil head c hset hi hhead
    unfold read at hr
    rw [lines_joined _ (oneLine_config nil c hn), hall] at hr
    simp only at hr
    split_ifs at hr
    have hr := Option.some.inj hr
    unfold docOf at hd
    cases hif : interfaces r.2 ((r.1.filterMap nameIn).dedup) with
    | none => simp [hif] at hd
    | some l =>
      simp only [hif] at hd
      have hd := Option.some.inj hd
      have hl : ∀ (vs : List (List Str × Value)) (ns : List Str) (l : List (Str × Interface)), interfaces vs ns = some l → l.map Prod.fst = ns := by
        intro vs ns
        induction ns with
        | nil => intro l h; simp only [interfaces, Option.some.injEq] at h; subst h; rfl
        | cons n ns ih =>
          intro l h
          simp only [interfaces] at h
          cases h1 : interface vs n with
          | none => simp [h1] at h
          | some i =>
            cases h2 : interfaces vs ns with
            | none => simp [h1, h2] at h
            | some l' =>
              simp only [h1, h2, Option.some.injEq] at h
              subst h
              simp [ih l' h2]
      have hfst := hl _ _ _ hif
      have hdl : d.interfaces = l := by rw [← hd]
      have hperm : (d.interfaces.map Prod.fst).Perm (c.interfaces.map Prod.fst) := hp.map _
      rw [hdl, hfst] at hperm
      have hsum : ((r.1.filterMap nameIn).dedup.map List.length).sum = ((c.interfaces.map Prod.fst).map List.length).sum :=
        perm_sum (hperm.map _)
      have hle := sublist_lengths (List.dedup_sublist (r.1.filterMap nameIn))
      have hnames : (r.1.filterMap nameIn).map List.length = (sorted c.interfaces).map (fun e => ((head e.1).getD 1 []).length) := by
        rw [← hr]
        simp only
        rw [tables_config]
        have h1 : nameIn [bs "Server"] = none ∧ nameIn [bs "Mqtt"] = none ∧ nameIn [bs "Interfaces"] = none ∧ nameIn [bs "Vessel"] = none :=
          ⟨rfl, rfl, rfl, rfl⟩
        rw [List.filterMap_append, List.filterMap_append]
        have h3 : [[bs "Server"], [bs "Mqtt"]].filterMap nameIn = [] := by simp [h1]
        have h4 : [[bs "Vessel"]].filterMap nameIn = [] := by simp [h1]
        obtain ⟨e, he, _⟩ := hb
        rw [h3, h4, if_neg (by rintro ⟨_, h⟩; rw [h] at he; simp at he), List.filterMap_cons_none h1.2.2.1]
        simp only [List.nil_append, List.append_nil]
        have hsub : ∀ e ∈ sorted c.interfaces, e ∈ c.interfaces := fun e he => (perm_sorted _).mem_iff.1 he
        revert hsub
        generalize sorted c.interfaces = L
        intro hsub
        induction L with
        | nil => rfl
        | cons a L ih =>
          have ha := hhead a (hsub a (by simp))
          obtain ⟨s, q, hl, _⟩ := hlines a (hsub a (by simp))
          rw [hl] at ha
          have ha : bs "Interfaces" :: s :: q = head a.1 := by simpa using ha
          have hna : nameIn (head a.1) = some s := by
            rw [← ha]
            simp only [nameIn, lower_names.1, if_true]
          rw [List.map_cons, List.filterMap_cons_some hna, List.map_cons, List.map_cons, ih (fun x hx => hsub x (by simp [hx])), ← ha]
          rfl
      have hlt : ((sorted c.interfaces).map (fun e => ((head e.1).getD 1 []).length)).sum < ((c.interfaces.map Prod.fst).map List.length).sum := by
        rw [perm_sum ((perm_sorted c.interfaces).map _), List.map_map]
        have each : ∀ e ∈ c.interfaces, ((head e.1).getD 1 []).length ≤ e.1.length ∧ ((92 : UInt8) ∈ e.1 → ((head e.1).getD 1 []).length < e.1.length) := by
          intro e he
          obtain ⟨s, q, hl, h1, h2⟩ := hlines e he
          have ha := hhead e he
          rw [hl] at ha
          have ha : bs "Interfaces" :: s :: q = head e.1 := by simpa using ha
          rw [← ha]
          exact ⟨h1, h2⟩
        obtain ⟨e, he, h92⟩ := hb
        clear hif hd hfst hdl hperm hsum hle hnames hr hall hhead hlines hany hset hi hn hp ht
        revert each he
        generalize c.interfaces = L
        intro each he
        induction L with
        | nil => simp at he
        | cons a L ih =>
          have hle' : ∀ L : List (Str × Interface), (∀ e ∈ L, ((head e.1).getD 1 []).length ≤ e.1.length) →
              (L.map (fun e => ((head e.1).getD 1 []).length)).sum ≤ (L.map (List.length ∘ Prod.fst)).sum := by
            intro L h
            induction L with
            | nil => simp
            | cons x L ih =>
              have h1 := h x (by simp)
              have h2 := ih (fun y hy => h y (by simp [hy]))
              simp only [List.map_cons, List.sum_cons, Function.comp]
              omega
          have ha := each a (by simp)
          have hL : ∀ e ∈ L, _ := fun e he => each e (List.mem_cons_of_mem _ he)
          rw [List.map_cons, List.map_cons, List.sum_cons, List.sum_cons]
          simp only [Function.comp]
          rcases List.mem_cons.mp he with rfl | he
          · have h1 := ha.2 h92
            have h2 := hle' L (fun e he => (hL e he).1)
            omega
          · have h1 := ih hL he
            omega
      rw [hnames] at hle
      omega

/-- A line of a text. -/
theorem lines_mem (X l T : Str) (R : List Str) (h : lines T = l :: R) : l ∈ (lines (X ++ 10 :: T)).tail := by
  induction X with
  | nil =>
    simp only [List.nil_append, lines, if_true, List.tail_cons, h]
    simp
  | cons x X ih =>
    simp only [List.cons_append, lines]
    split_ifs
    · exact List.mem_of_mem_tail ih
    · exact ih
    · split
      · rename_i hl; rw [hl] at ih; simp at ih
      · rename_i hl; rw [hl] at ih; exact ih

theorem lines_append_cr (l : Str) (h : (10 : UInt8) ∉ l) (t : Str) : lines (l ++ 13 :: 10 :: t) = l :: lines t := by
  induction l with
  | nil => simp [lines]
  | cons b l ih =>
    have hb : b ≠ 10 := by rintro rfl; exact h (by simp)
    have ih := ih (fun hh => h (by simp [hh]))
    simp only [List.cons_append, lines, hb, if_false]
    rw [if_neg (by
      rintro ⟨_, h'⟩
      cases l with
      | nil => simp at h'
      | cons x l => simp at h'; exact h (by simp [h'])), ih]

/-- The beginning of the header of an interface. -/
def openHeader : Str := List.replicate 2 32 ++ bs "[" ++ keyText (bs "Interfaces") ++ bs "."

theorem openHeader_eq : openHeader = [32, 32, 91] ++ (bs "Interfaces" ++ [46]) := by decide +kernel

/-- A header whose quoted key is not closed. -/
theorem line_open (strict : Bool) (k : Str) (h : (92 : UInt8) ∉ k) : line strict (openHeader ++ (34 :: quotes k)) = none := by
  rw [openHeader_eq]
  have hs : skip ([32, 32, 91] ++ (bs "Interfaces" ++ [46]) ++ 34 :: quotes k) = 91 :: (bs "Interfaces" ++ 46 :: 34 :: quotes k) := by
    have : [32, 32, 91] ++ (bs "Interfaces" ++ [46]) ++ 34 :: quotes k = List.replicate 2 32 ++ 91 :: (bs "Interfaces" ++ 46 :: 34 :: quotes k) := by simp [List.replicate]
    rw [this]
    exact skip_blanks 2 _ (by intro b hb; simp at hb; subst hb; rfl)
  have hb : (bs "Interfaces").all bare = true ∧ bs "Interfaces" ≠ [] := by decide +kernel
  have hi : bs "Interfaces" = 73 :: bs "nterfaces" := by decide +kernel
  have hkey := key_bare strict (bs "Interfaces") hb.2 hb.1 (46 :: 34 :: quotes k) (by intro b hb; simp at hb; subst hb; decide)
  have hsk : skip (bs "Interfaces" ++ 46 :: 34 :: quotes k) = bs "Interfaces" ++ 46 :: 34 :: quotes k := by
    apply skip_none
    rw [hi]; intro b hb; simp at hb; subst hb; rfl
  have hsk2 : skip (46 :: 34 :: quotes k) = 46 :: 34 :: quotes k := rfl
  have hsk3 : skip (34 :: quotes k) = 34 :: quotes k := rfl
  have hinner : ∀ n, path strict n (34 :: quotes k) = none := by
    intro n
    cases n with
    | zero => rfl
    | succ n =>
      have : key strict (34 :: quotes k) = none := by
        simp only [key, if_true]
        exact basic_unclosed strict k h _
      simp only [path, hsk3, this]
  unfold line
  rw [hs]
  simp only [show ¬ (91 : UInt8) = 35 by decide, if_false, if_true]
  simp only [path, hsk, hkey, hsk2, hinner, show ¬ (46 : UInt8) = 93 by decide, if_false, if_true]

/-- The lines of an interface, where they stand in the text. -/
theorem text_at (nil : Bool) (c : Conf) (t : Str) (ht : configText nil c = some t) (e : Str × Interface) (he : e ∈ c.interfaces) :
    ∃ X T, t = X ++ 10 :: (interfaceText e ++ T) := by
  unfold configText at ht
  split_ifs at ht
  have ht := Option.some.inj ht
  obtain ⟨s1, s2, hs⟩ := List.append_of_mem ((perm_sorted c.interfaces).mem_iff.2 he)
  have hne : ¬ (nil = true ∧ c.interfaces = []) := by rintro ⟨_, h⟩; rw [h] at he; simp at he
  unfold interfacesText at ht
  rw [if_neg hne] at ht
  have hs' : c.interfaces.insertionSort (fun a b => leBytes a.1 b.1 = true) = s1 ++ e :: s2 := hs
  rw [hs', List.flatMap_append, List.flatMap_cons] at ht
  have hend : ∃ Y, [10] ++ s1.flatMap interfaceText = Y ++ [10] := by
    rcases List.eq_nil_or_concat s1 with rfl | ⟨s, a, rfl⟩
    · exact ⟨[], rfl⟩
    · have : ∃ Z, interfaceText a = Z ++ [10] := by
        unfold interfaceText
        rw [pairText_eq 2 (bs "Speed")]
        exact ⟨_, (List.append_assoc _ _ _).symm⟩
      obtain ⟨Z, hZ⟩ := this
      refine ⟨[10] ++ s.flatMap interfaceText ++ Z, ?_⟩
      rw [List.concat_eq_append, List.flatMap_append]
      simp only [List.flatMap_cons, List.flatMap_nil, List.append_nil]
      rw [hZ]
      simp
  obtain ⟨Y, hY⟩ := hend
  refine ⟨topFields.flatMap (fun f => pairText 0 f.1 (c.val f.2)) ++ tableText c (bs "Server") serverFields ++
    tableText c (bs "Mqtt") mqttFields ++ ([10] ++ bs "[" ++ keyText (bs "Interfaces") ++ bs "]" ++ Y),
    s2.flatMap interfaceText ++ tableText c (bs "Vessel") vesselFields, ?_⟩
  rw [← ht]
  have hY' : ∀ Z, 10 :: (s1.flatMap interfaceText ++ Z) = Y ++ 10 :: Z := by
    intro Z
    have := congrArg (fun x => x ++ Z) hY
    simpa using this
  simp only [List.append_assoc, List.cons_append, List.nil_append]
  rw [hY']

/-- **C130** (line ends): if an interface has a line end in its name (and no backslash), the saved file is not TOML and a
restart fails, whatever else the configuration is. -/
theorem C130_newline_false (strict nil : Bool) (c : Conf) (t : Str) (ht : configText nil c = some t) (e : Str × Interface)
    (he : e ∈ c.interfaces) (hn : (10 : UInt8) ∈ e.1) (hb : (92 : UInt8) ∉ e.1) : read strict t = none := by
  -- the name up to its line end
  obtain ⟨k1, k2, hk, hk1⟩ : ∃ k1 k2, e.1 = k1 ++ 10 :: k2 ∧ (10 : UInt8) ∉ k1 := by
    refine ⟨e.1.takeWhile (· ≠ 10), (e.1.dropWhile (· ≠ 10)).tail, ?_, ?_⟩
    · have h1 := List.takeWhile_append_dropWhile (p := fun b : UInt8 => decide (b ≠ 10)) (l := e.1)
      cases hd : e.1.dropWhile (· ≠ 10) with
      | nil =>
        have := List.dropWhile_eq_nil_iff.mp hd 10 hn
        simp at this
      | cons b r =>
        have hb : b = 10 := by
          have := List.head_dropWhile_not (fun b : UInt8 => decide (b ≠ 10)) (l := e.1) (by rw [hd]; simp)
          simp only [hd, List.head_cons] at this
          simpa using this
        rw [hd, hb] at h1
        exact h1.symm
    · intro h
      have := List.mem_takeWhile_imp h
      simp at this
  have hnb : e.1.all bareKeyChar = false := by
    rw [List.all_eq_false]
    exact ⟨10, hn, by decide⟩
  have hkt : keyText e.1 = 34 :: quotes k1 ++ 10 :: (quotes k2 ++ [34]) := by
    unfold keyText
    rw [hnb, hk]
    simp [quotes]
  have hb1 : (92 : UInt8) ∉ k1 := by intro h; exact hb (by rw [hk]; simp [h])
  have hl10 : ∀ k : Str, (10 : UInt8) ∉ k → (10 : UInt8) ∉ quotes k := by
    intro k hk
    simp only [quotes, List.mem_flatMap, not_exists, not_and]
    intro b hb' h'
    split_ifs at h' <;> simp at h'
    subst h'; exact hk hb'
  obtain ⟨X, T, htext⟩ : ∃ X T, t = X ++ 10 :: (openHeader ++ (34 :: quotes k1) ++ 10 :: T) := by
    obtain ⟨X, T, h⟩ := text_at nil c t ht e he
    have hie : ∃ R, interfaceText e = openHeader ++ (34 :: quotes k1) ++ 10 :: R := by
      unfold interfaceText openHeader
      rw [hkt]
      simp only [List.append_assoc, List.cons_append]
      exact ⟨_, rfl⟩
    obtain ⟨R, hR⟩ := hie
    refine ⟨X, R ++ T, ?_⟩
    rw [h, hR]
    simp
  have hlast : openHeader.getLast? = some 46 ∧ (10 : UInt8) ∉ openHeader := by decide +kernel
  have hline : ∃ l R, lines (openHeader ++ (34 :: quotes k1) ++ 10 :: T) = l :: R ∧ line strict l = none := by
    by_cases h13 : (openHeader ++ (34 :: quotes k1)).getLast? = some 13
    · rcases List.eq_nil_or_concat k1 with rfl | ⟨k0, a, rfl⟩
      · simp [quotes] at h13
      · rw [List.concat_eq_append] at h13 hk1 hb1 ⊢
        have hq : quotes (k0 ++ [a]) = quotes k0 ++ (if a = 34 then [92, 34] else [a]) := by simp [quotes]
        have ha : a = 13 := by
          rw [hq] at h13
          split_ifs at h13 with h
          · have : openHeader ++ 34 :: (quotes k0 ++ [92, 34]) = (openHeader ++ 34 :: (quotes k0 ++ [92])) ++ [34] := by simp
            rw [this, List.getLast?_concat] at h13
            cases h13
          · have : openHeader ++ 34 :: (quotes k0 ++ [a]) = (openHeader ++ 34 :: quotes k0) ++ [a] := by simp
            rw [this, List.getLast?_concat] at h13
            exact Option.some.inj h13
        subst ha
        rw [if_neg (by decide)] at hq
        have hform : openHeader ++ 34 :: quotes (k0 ++ [13]) ++ 10 :: T = (openHeader ++ 34 :: quotes k0) ++ 13 :: 10 :: T := by
          rw [hq]; simp
        refine ⟨openHeader ++ 34 :: quotes k0, lines T, ?_, line_open strict k0 (fun h => hb1 (by simp [h]))⟩
        rw [hform, lines_append_cr]
        simp only [List.mem_append, List.mem_cons, not_or]
        exact ⟨hlast.2, by decide, hl10 k0 (fun h => hk1 (by simp [h]))⟩
    · refine ⟨openHeader ++ 34 :: quotes k1, _, lines_append _ ?_ h13 T, line_open strict k1 hb1⟩
      simp only [List.mem_append, List.mem_cons, not_or]
      exact ⟨hlast.2, by decide, hl10 k1 hk1⟩
  obtain ⟨l, R, hl, hnone⟩ := hline
  have hmem := lines_mem X l _ R hl
  rw [← htext] at hmem
  unfold read
  rw [allLines_none strict _ l (List.mem_of_mem_tail hmem) hnone]

/-- **C130** (speed): an interface with a speed of 2^63 or more makes a file that is not TOML: a restart fails. -/
theorem C130_speed_false (strict nil : Bool) (c : Conf) (t : Str) (ht : configText nil c = some t)
    (e : Str × Interface) (he : e ∈ c.interfaces) (hs : 2 ^ 63 ≤ e.2.speed) : read strict t = none := by
  suffices hline : line strict (pairLine 2 (bs "Speed") (.int e.2.speed)) = none by
    obtain ⟨X, T, h⟩ := text_at nil c t ht e he
    have hl := oneLine_pair 2 (bs "Speed") (members_bare _ (by simp)).2 (.int e.2.speed)
    have hie : ∃ Z, interfaceText e = Z ++ 10 :: (pairLine 2 (bs "Speed") (.int e.2.speed) ++ [10]) := by
      unfold interfaceText
      rw [pairText_eq 2 (bs "Type"), pairText_eq 2 (bs "Speed")]
      refine ⟨List.replicate 2 32 ++ bs "[" ++ keyText (bs "Interfaces") ++ bs "." ++ keyText e.1 ++ bs "]" ++ [10] ++
        pairText 2 (bs "Path") (.str e.2.path) ++ pairLine 2 (bs "Type") (.str e.2.type), ?_⟩
      simp only [List.append_assoc, List.cons_append, List.nil_append]
    obtain ⟨Z, hZ⟩ := hie
    have hform : t = (X ++ 10 :: Z) ++ 10 :: (pairLine 2 (bs "Speed") (.int e.2.speed) ++ 10 :: T) := by rw [h, hZ]; simp
    have hmem := lines_mem (X ++ 10 :: Z) _ _ _ (lines_append _ hl.1 hl.2 T)
    rw [← hform] at hmem
    unfold read
    rw [allLines_none strict _ _ (List.mem_of_mem_tail hmem) hline]
  rw [line_pair' strict 2 _ (members_bare _ (by simp)).1 (members_bare _ (by simp)).2]
  have : value strict (scalarText (.int e.2.speed)) = none := by
    obtain ⟨b, l, hb, hd, hl, _⟩ := Json.dec_shape e.2.speed
    have hall : ∀ x ∈ b :: l, 48 ≤ x.toNat ∧ x.toNat ≤ 57 := by
      intro x hx
      have : Json.isDigit x = true := by
        rcases List.mem_cons.mp hx with rfl | hx
        · exact hd
        · exact hl x hx
      unfold Json.isDigit at this
      simpa using this
    have hne : ∀ c : UInt8, (c.toNat < 48 ∨ 57 < c.toNat) → c ∉ b :: l := by
      intro c h2 hc
      have := hall c hc
      omega
    have hw := takeWhile_all (fun b => !(isBlank b || b = 35)) (b :: l) (by
      intro x hx
      have h := hall x hx
      unfold isBlank
      have h1 : x ≠ 32 := by rintro rfl; revert h; decide
      have h2 : x ≠ 9 := by rintro rfl; revert h; decide
      have h3 : x ≠ 35 := by rintro rfl; revert h; decide
      simp [h1, h2, h3]) [] (by simp)
    simp only [List.append_nil] at hw
    have h34 : b ≠ 34 := by rintro rfl; exact hne 34 (by decide) (by simp)
    have h39 : b ≠ 39 := by rintro rfl; exact hne 39 (by decide) (by simp)
    have hb102 : b ≠ 102 := by rintro rfl; exact hne 102 (by decide) (by simp)
    have hb116 : b ≠ 116 := by rintro rfl; exact hne 116 (by decide) (by simp)
    have hbig := integer_big e.2.speed hs
    have htext : scalarText (.int e.2.speed) = b :: l := hb
    rw [htext]
    rw [hb] at hbig
    simp only [value, h34, h39, if_false, hw.1, hw.2, hbig]
    rw [if_neg (by intro h; exact hb116 (List.cons.inj h).1), if_neg (by intro h; exact hb102 (List.cons.inj h).1)]
    rfl
  rw [this]

theorem banned_small {strict : Bool} {b : UInt8} (h : banned strict b = true) : b.toNat < 32 := by
  unfold banned at h
  cases strict with
  | true => simpa using h
  | false =>
    simp only [Bool.false_eq_true, if_false, Bool.or_eq_true, decide_eq_true_eq] at h
    rcases h with (rfl | rfl) | rfl <;> decide

theorem basic_control (strict : Bool) (s : Str) (h : ∃ b ∈ s, banned strict b = true ∧ b ≠ 9 ∧ b ≠ 10 ∧ b ≠ 13) (n : Nat) (r : Str) :
    basic strict n (s.flatMap escaped ++ r) = none := by
  induction s generalizing n with
  | nil => simp at h
  | cons a s ih =>
    cases n with
    | zero => rfl
    | succ n =>
      rw [List.flatMap_cons, List.append_assoc]
      by_cases ha : banned strict a = true ∧ a ≠ 9 ∧ a ≠ 10 ∧ a ≠ 13
      · have h34 : a ≠ 34 := by rintro rfl; exact absurd (banned_small ha.1) (by decide)
        have h92 : a ≠ 92 := by rintro rfl; exact absurd (banned_small ha.1) (by decide)
        have he : escaped a = [a] := by unfold escaped; simp [ha, h34, h92]
        have hban := ha.1
        rw [he]
        simp [basic, character, h34, h92, hban]
      · have ih := ih (by
          obtain ⟨b, hb, h⟩ := h
          rcases List.mem_cons.mp hb with rfl | hb
          · exact absurd h ha
          · exact ⟨b, hb, h⟩) n
        have he : (escaped a = [a] ∧ a ≠ 34 ∧ a ≠ 92) ∨ ∃ e, escaped a = [92, e] ∧ short e = some a := by
          unfold escaped
          split_ifs with h1 h2 h3 h4 h5
          · subst h1; exact Or.inr ⟨_, rfl, rfl⟩
          · subst h2; exact Or.inr ⟨_, rfl, rfl⟩
          · subst h3; exact Or.inr ⟨_, rfl, rfl⟩
          · subst h4; exact Or.inr ⟨_, rfl, rfl⟩
          · subst h5; exact Or.inr ⟨_, rfl, rfl⟩
          · exact Or.inl ⟨rfl, h4, h5⟩
        rcases he with ⟨he, h34, h92⟩ | ⟨e, he, hs⟩
        · rw [he]
          cases hban : banned strict a <;> simp [basic, character, h34, h92, hban, ih]
        · rw [he]; simp [basic, character, hs, ih]

theorem text_control (strict nil : Bool) (c : Conf) (t : Str) (ht : configText nil c = some t)
    (hn : ∀ e ∈ c.interfaces, (10 : UInt8) ∉ e.1) (s : Setting) (hs : inToml s = true) (v : Str) (hv : c.val s = .str v)
    (h : ∃ b ∈ v, banned strict b = true ∧ b ≠ 9 ∧ b ≠ 10 ∧ b ≠ 13) : read strict t = none := by
  rw [configText_eq] at ht
  split_ifs at ht
  have ht := Option.some.inj ht
  subst ht
  have hvalue : value strict (scalarText (.str v)) = none := by
    simp only [scalarText, quoted, List.cons_append, value, if_true, basic_control strict v h]
    rfl
  have hfield : ∃ f ∈ topFields ++ serverFields ++ mqttFields ++ vesselFields, f.2 = s := by
    have := (inToml_mem s (settings_all s)).1 hs
    simp only [before, after, ← List.map_append] at this
    obtain ⟨f, hf, rfl⟩ := List.mem_map.mp this
    exact ⟨f, hf, rfl⟩
  obtain ⟨f, hf, rfl⟩ := hfield
  have hline : ∀ indent, line strict (pairLine indent f.1 (c.val f.2)) = none := by
    intro indent
    rw [line_pair' strict indent _ (fields_bare f hf).1 (fields_bare f hf).2, hv, hvalue]
  have hmem : ∃ indent, pairLine indent f.1 (c.val f.2) ∈ configLines nil c := by
    simp only [List.mem_append] at hf
    unfold configLines tableLines
    simp only [List.mem_append, List.mem_map]
    rcases hf with ((hf | hf) | hf) | hf
    · exact ⟨0, Or.inl (Or.inl (Or.inl (Or.inl ⟨f, hf, rfl⟩)))⟩
    · exact ⟨1, Or.inl (Or.inl (Or.inl (Or.inr (Or.inr ⟨f, hf, rfl⟩))))⟩
    · exact ⟨1, Or.inl (Or.inl (Or.inr (Or.inr ⟨f, hf, rfl⟩)))⟩
    · exact ⟨1, Or.inr (Or.inr ⟨f, hf, rfl⟩)⟩
  obtain ⟨indent, hm⟩ := hmem
  exact read_none strict nil c hn _ hm (hline indent)

/-- **C130** (control characters): a setting with a control character other than tab and line ends makes a file that is not TOML
for a reader that follows the specification (the library of argo itself does read it: `C130_file_partial` with `strict` false). -/
theorem C130_control_false (nil : Bool) (c : Conf) (t : Str) (ht : configText nil c = some t)
    (hn : ∀ e ∈ c.interfaces, (10 : UInt8) ∉ e.1) (s : Setting) (hs : inToml s = true) (v : Str) (hv : c.val s = .str v)
    (h : ∃ b ∈ v, b.toNat < 32 ∧ b ≠ 9 ∧ b ≠ 10 ∧ b ≠ 13) : read true t = none :=
  text_control true nil c t ht hn s hs v hv (by
    obtain ⟨b, hb, h1, h2⟩ := h
    exact ⟨b, hb, by simpa [banned] using h1, h2⟩)

/-- **C130** (NUL): a setting with a NUL makes a file that argo itself cannot read: a restart fails. -/
theorem C130_nul_false (strict nil : Bool) (c : Conf) (t : Str) (ht : configText nil c = some t)
    (hn : ∀ e ∈ c.interfaces, (10 : UInt8) ∉ e.1) (s : Setting) (hs : inToml s = true) (v : Str) (hv : c.val s = .str v)
    (h : (0 : UInt8) ∈ v) : read strict t = none :=
  text_control strict nil c t ht hn s hs v hv ⟨0, h, by cases strict <;> decide, by decide, by decide, by decide⟩

/-- **C130** (the empty name): once there is an interface whose name is empty, nothing that is posted is ever saved again, and
nothing says so: argo.conf stays as it is, however many posts are accepted. -/
theorem C130_empty_false (nil : Conf → Bool) (m : Machine) (he : ∃ i, ([], i) ∈ m.1.interfaces) (posts : List (Option Doc)) :
    (posts.foldl (post nil) m).2 (bs "argo.conf") = m.2 (bs "argo.conf") := by
  induction posts generalizing m with
  | nil => rfl
  | cons p ps ih =>
    have hmono : ∀ c : Conf, ∀ e ∈ c.interfaces, e ∈ (admin c p).1.interfaces := by
      intro c e he
      unfold admin
      split
      · exact he
      · split
        · exact he
        · simp [Config.merge, he]
    have h1 : (post nil m p).1 = (admin m.1 p).1 := by unfold post; split <;> rfl
    obtain ⟨i, hi⟩ := he
    have hi' : ([], i) ∈ (admin m.1 p).1.interfaces := hmono m.1 _ hi
    rw [List.foldl_cons, ih (post nil m p) ⟨i, by rw [h1]; exact hi'⟩]
    unfold post
    split
    · rfl
    · have hnone : configText (nil (admin m.1 p).1) (admin m.1 p).1 = none := by
        unfold configText
        rw [if_pos]
        simp only [List.any_eq_true, decide_eq_true_eq]
        exact ⟨_, hi', rfl⟩
      simp only [save, writeConfig, hnone]
      exact if_neg (by decide +kernel)

/-- **C130** (refused): whatever the configuration is, one POST with an interface that has a new name and a speed of 2^63 or more
is accepted, and afterwards argo cannot be started any more (argo.go:86-88). -/
theorem C130_refused_false (nil : Conf → Bool) (m : Machine) (h0 : ∀ e ∈ m.1.interfaces, e.1 ≠ []) (n : Str) (hn : n ≠ [])
    (hnew : n ∉ m.1.interfaces.map Prod.fst) (i : Interface) (hi : 2 ^ 63 ≤ i.speed) :
    (readFile (post nil m (some ⟨fun _ => none, [(n, i)]⟩)).2 (bs "argo.conf")).2 = false := by
  have hit : ¬ Illtyped (fun _ => true) ⟨fun _ => none, [(n, i)]⟩ := by rintro ⟨s, v, hv, _⟩; cases hv
  have hadmin : admin m.1 (some ⟨fun _ => none, [(n, i)]⟩) =
      (Config.merge m.1 ⟨zeroOf, [(n, i)]⟩, some (written (Config.merge m.1 ⟨zeroOf, [(n, i)]⟩))) := by
    simp only [admin, decode_some _ _ hit]
    rfl
  have hifs : (Config.merge m.1 ⟨zeroOf, [(n, i)]⟩).interfaces = m.1.interfaces ++ [(n, i)] := by
    have : Config.mapGet m.1.interfaces n = none := by
      unfold Config.mapGet
      rw [List.find?_eq_none.mpr]
      · rfl
      · intro e he hh
        simp only [decide_eq_true_eq] at hh
        exact hnew (List.mem_map.mpr ⟨e, he, hh⟩)
    simp [Config.merge, this]
  obtain ⟨t, ht⟩ : ∃ t, configText (nil (Config.merge m.1 ⟨zeroOf, [(n, i)]⟩)) (Config.merge m.1 ⟨zeroOf, [(n, i)]⟩) = some t := by
    rw [configText_eq, if_neg]
    · exact ⟨_, rfl⟩
    · simp only [List.any_eq_true, decide_eq_true_eq, not_exists, not_and, hifs, List.mem_append, List.mem_singleton]
      rintro e (he | rfl)
      · exact h0 e he
      · exact hn
  have hr := C130_speed_false false _ _ t ht (n, i) (by rw [hifs]; simp) hi
  have hfile : (post nil m (some ⟨fun _ => none, [(n, i)]⟩)).2 (bs "argo.conf") = some t := by
    unfold post
    rw [hadmin]
    simp only [save, writeConfig, ht]
    exact if_pos rfl
  unfold readFile
  rw [hfile]
  simp [fileDoc, hr, readConfig]

/-- **C130** (refused for good): no later POST repairs it. -/
theorem C130_stuck_false (nil : Conf → Bool) (m : Machine) (he : ∃ e ∈ m.1.interfaces, 2 ^ 63 ≤ e.2.speed)
    (hbad : (readFile m.2 (bs "argo.conf")).2 = false) (posts : List (Option Doc)) :
    (readFile (posts.foldl (post nil) m).2 (bs "argo.conf")).2 = false := by
  induction posts generalizing m with
  | nil => exact hbad
  | cons p ps ih =>
    have hmono : ∀ c : Conf, ∀ e ∈ c.interfaces, e ∈ (admin c p).1.interfaces := by
      intro c e he
      unfold admin
      split
      · exact he
      · split
        · exact he
        · simp [Config.merge, he]
    have h1 : (post nil m p).1 = (admin m.1 p).1 := by unfold post; split <;> rfl
    obtain ⟨e, he, hs⟩ := he
    have he' := hmono m.1 e he
    rw [List.foldl_cons]
    refine ih (post nil m p) ⟨e, by rw [h1]; exact he', hs⟩ ?_
    unfold post
    split
    · exact hbad
    · cases ht : configText (nil (admin m.1 p).1) (admin m.1 p).1 with
      | none =>
        have : save (nil (admin m.1 p).1) (admin m.1 p).1 m.2 (bs "argo.conf") = m.2 (bs "argo.conf") := by
          simp only [save, writeConfig, ht]
          exact if_neg (by decide +kernel)
        unfold readFile at hbad ⊢
        simp only [this]
        exact hbad
      | some t =>
        have : save (nil (admin m.1 p).1) (admin m.1 p).1 m.2 (bs "argo.conf") = some t := by
          simp only [save, writeConfig, ht]
          exact if_pos rfl
        have hr := C130_speed_false false _ _ t ht e he' hs
        unfold readFile
        simp only [this]
        simp [fileDoc, hr, readConfig]

/-! ## Examples -/

/-- The example of argo.conf.sample, with a name that has to be quoted, one that is Unicode, and texts that have to be escaped. -/
def exampleConf : Conf :=
  ⟨fun s => if s = .vesselName then .str (bs "SS \"Minnow\" \\o/\n") else if s = .mmsi then .int 123456789 else if s = .year then .int (-5) else defaultVal s,
    [(bs "Actisense1", ⟨bs "/dev/ttyUSB0", bs "actisense", 115200⟩), (bs "my \"wind\" = ö", ⟨bs "C:\\wind.json", bs "file", 0⟩)]⟩

theorem example_savable (strict : Bool) : Savable strict exampleConf := by
  have ht : ∀ strict : Bool, ∀ s ∈ settings, (match exampleConf.val s with
      | .str t => decide (∀ b ∈ t, if strict then 32 ≤ b.toNat ∨ b = 9 ∨ b = 10 ∨ b = 13 else b ≠ 0)
      | .int n => decide (-2 ^ 63 ≤ n ∧ n < 2 ^ 63)
      | .bool _ => true) = true := by decide +kernel
  refine ⟨fun s t _ h => ?_, fun s n _ h => ?_, by decide +kernel, ?_, ?_, by decide +kernel⟩
  · have := ht strict s (settings_all s); rw [h] at this; exact of_decide_eq_true this
  · have := ht strict s (settings_all s); rw [h] at this; exact of_decide_eq_true this
  · revert strict; decide +kernel
  · revert strict; decide +kernel

-- the text, and what is read from a text with comments, literal strings and keys in another case
example : (fileDoc (some (bs "# boat\r\n[vessel] # x\r\n name = 'a\\b'\r\nYEAR = -5"))).map (fun d => (d.val .vesselName, d.val .year, d.val .mmsi)) =
    some (some (.str (bs "a\\b")), some (.int (-5)), none) := by decide +kernel
example : read true (bs "[a]\n[a]") = none ∧ read true (bs "a = 1\na = 2") = none ∧ read true (bs "a = 1\n[a.b]") = none ∧
    read true (bs "a = 01") = none ∧ read true (bs "a = \"x") = none := by decide +kernel
example : read true (bs "[\"a b\" . c ]\n  d= \"\\u00e9\\t\" ") = some ([[bs "a b", bs "c"]], [([bs "a b", bs "c", bs "d"], .str (bs "é\t"))]) := by
  decide +kernel

-- C130_restart_partial: a machine that starts
example : (readFile (fun n => if n = bs "argo.conf" then some (bs "[Mqtt]\nHost = \"h\"") else none) (bs "argo.conf")).2 = true := by decide +kernel

-- C130_backslash_false: such a configuration does exist, and is savable but for the name; the file reads but the name is another
example : ∃ t, configText false ⟨defaultVal, [(bs "a\\b", ⟨[], [], 0⟩)]⟩ = some t ∧
    (fileDoc (some t)).map (fun d => d.interfaces.map Prod.fst) = some [[97, 8]] := by
  refine ⟨_, rfl, ?_⟩
  decide +kernel

-- and one that argo refuses to read
example : ∃ t, configText false ⟨defaultVal, [(bs "C:\\wind", ⟨[], [], 0⟩)]⟩ = some t ∧ fileDoc (some t) = none := by
  refine ⟨_, rfl, ?_⟩
  have : ∀ d : Option Doc, d.isNone = true → d = none := by intro d; cases d <;> simp
  apply this
  decide +kernel

end Argo.Toml
