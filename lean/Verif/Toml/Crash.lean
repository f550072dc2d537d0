import Verif.Toml.Form
import Verif.Config.Save

set_option autoImplicit false

/-!
# C136: starting again after a save that was cut off

C76 says what is in the two files when argo dies while it saves the settings; C130 what a complete file means.  Here is what argo does
when it is started again on what is left.
-/

namespace Argo.Toml

open Argo Config Signalk

/-! ## Specification -/

/-- argo dies while it saves the configuration `c`: the files before are `fs`, and `left` those after.  The backup and the text are written in
any pieces; any number of the operations were done (none and all of them included). -/
def CutOff (nil : Bool) (c : Conf) (fs left : FS) : Prop :=
  ∃ text bakPieces confPieces done, configText nil c = some text ∧ bakPieces.flatten = (fs (bs "argo.conf")).getD [] ∧
    confPieces.flatten = text ∧ done <+: saveOps bakPieces confPieces ∧ left = applyAll fs done

/-- The owner copies a file to argo.conf. -/
def copied (name : Str) (fs : FS) : FS := fun n => if n = bs "argo.conf" then fs name else fs n

/-- The settings that stand before the interfaces in the file, in its order. -/
def fileOrder : List Setting :=
  [.logLevel, .mapFile, .enableWebsockets, .serverUseTls, .serverPort, .listenOn, .assetPath, .publicKeyFile, .privateKeyFile,
   .mqttEnable, .mqttUseTls, .mqttPort, .mqttHost, .clientId, .username, .password, .channel]

/-! ## Proofs -/

theorem appended_prefix (fs : FS) (name : Str) : ∀ (pieces : List Str) (q : List FileOp) (c : Str), fs name = some c →
    q <+: pieces.map (.append name) → ∃ t, t <+: pieces.flatten ∧ applyAll fs q name = some (c ++ t) := by
  intro pieces q c h hq
  obtain ⟨k, hk⟩ := List.prefix_iff_eq_take.mp hq ▸ (⟨q.length, rfl⟩ : ∃ k, k = q.length)
  have e : q = (pieces.take q.length).map (.append name) := by
    rw [List.map_take]; exact List.prefix_iff_eq_take.mp hq
  rw [e, applyAll_appends fs name c h]
  refine ⟨(pieces.take q.length).flatten, ?_, by simp⟩
  conv_rhs => rw [← List.take_append_drop q.length pieces, List.flatten_append]
  exact List.prefix_append _ _

/-- What is in argo.conf. -/
theorem cutOff_conf {nil : Bool} {c : Conf} {fs left : FS} (h : CutOff nil c fs left) :
    left (bs "argo.conf") = fs (bs "argo.conf") ∨
    (left (bs "argo.conf~") = some ((fs (bs "argo.conf")).getD []) ∧
      ∃ text part, configText nil c = some text ∧ part <+: text ∧ left (bs "argo.conf") = some part) := by
  obtain ⟨text, bp, cp, done, ht, hb, hc, hd, rfl⟩ := h
  rw [conf_eq, bak_eq]
  rw [conf_eq] at hb
  rcases prefix_cases _ _ _ hd with hd | ⟨q, hq, rfl⟩
  · left; exact writeFile_prefix_other fs bakName bp done hd _ conf_ne_bak
  · rw [applyAll_append, applyAll_writeFile]
    cases q with
    | nil => left; simp [applyAll, conf_ne_bak]
    | cons o q =>
      right
      have ho : o = .create confName := by
        obtain ⟨r, hr⟩ := hq
        simp only [writeFile, List.cons_append, List.cons.injEq] at hr
        exact hr.1
      subst ho
      have hq' : q <+: cp.map (.append confName) := by
        obtain ⟨r, hr⟩ := hq
        simp only [writeFile, List.cons_append, List.cons.injEq] at hr
        exact ⟨r, hr.2⟩
      refine ⟨?_, ?_⟩
      · rw [writeFile_prefix_other _ confName cp _ hq _ (Ne.symm conf_ne_bak)]
        simp [hb]
      · obtain ⟨t, h1, h2⟩ := appended_prefix (FileOp.apply (fun n => if n = bakName then some bp.flatten else fs n) (.create confName))
          confName cp q [] (by simp [FileOp.apply]) hq'
        exact ⟨text, t, ht, by rw [← hc]; exact h1, h2⟩

theorem same_start {a b : FS} (h : a (bs "argo.conf") = b (bs "argo.conf")) : (Starts a ↔ Starts b) ∧ startup a = startup b := by
  unfold Starts startup boot readFile
  rw [h]
  exact ⟨Iff.rfl, rfl⟩

/-! ### A part of the file -/

theorem allLines_take (strict : Bool) : ∀ (a : List Str) (x : List Line) (k : Nat), allLines strict a = some x →
    allLines strict (a.take k) = some (x.take k) := by
  intro a
  induction a with
  | nil => intro x k h; simp only [allLines, Option.some.injEq] at h; subst h; simp [allLines]
  | cons l a ih =>
    intro x k h
    cases k with
    | zero => simp [allLines]
    | succ k =>
      simp only [allLines] at h
      cases h1 : line strict l with
      | none => rw [h1] at h; cases h
      | some y =>
        cases h2 : allLines strict a with
        | none => rw [h1, h2] at h; cases h
        | some ys =>
          rw [h1, h2] at h
          simp only [Option.some.injEq] at h
          subst h
          simp only [List.take_succ_cons, allLines, h1, ih ys k h2]

/-- The lines before the interfaces. -/
def headLines (c : Conf) : List Str :=
  topFields.map (fun f => pairLine 0 f.1 (c.val f.2)) ++ tableLines c (bs "Server") serverFields ++ tableLines c (bs "Mqtt") mqttFields

/-- What they say. -/
def headSays (c : Conf) : List Line :=
  topFields.map (fun f => .pair f.1 (toValue (c.val f.2))) ++ tableSays c (bs "Server") serverFields ++ tableSays c (bs "Mqtt") mqttFields

theorem configLines_head (nil : Bool) (c : Conf) : ∃ r, configLines nil c = headLines c ++ r :=
  ⟨interfacesLines nil c.interfaces ++ tableLines c (bs "Vessel") vesselFields, by simp [configLines, headLines, List.append_assoc]⟩

theorem allLines_head (c : Conf) (hc : SoundSettings false c) : allLines false (headLines c) = some (headSays c) := by
  refine allLines_append false _ _ _ _ (allLines_append false _ _ _ _ ?_ ?_) ?_
  · refine allLines_map false _ _ _ ?_
    intro f h
    have h : f ∈ topFields ++ serverFields ++ mqttFields ++ vesselFields := by simp [h]
    exact line_pair false 0 f.1 (fields_bare f h).1 (fields_bare f h).2 _ (hc _ (fields_inToml f h))
  · exact allLines_table false c hc _ (by simp) _ (by intro f h; simp [h])
  · exact allLines_table false c hc _ (by simp) _ (by intro f h; simp [h])

theorem oneLine_headLines (c : Conf) : ∀ l ∈ headLines c, OneLine l := by
  intro l hl
  have := oneLine_config true ⟨c.val, []⟩ (by simp) l
  apply this
  obtain ⟨r, hr⟩ := configLines_head true ⟨c.val, []⟩
  rw [hr]
  exact List.mem_append_left _ hl

/-- The number of lines up to the setting number `j`. -/
def linesFor (j : Nat) : Nat := if j ≤ 2 then j else if j ≤ 9 then j + 2 else j + 4

theorem fileOrder_before : fileOrder = before := rfl

theorem values_part (c : Conf) (j : Nat) (hj : j ≤ 17) :
    values [] ((headSays c).take (linesFor j) ++ [.nothing]) = settingVals c (fileOrder.take j) := by
  interval_cases j <;> rfl

theorem tables_part (c : Conf) (j : Nat) (hj : j ≤ 17) :
    tables ((headSays c).take (linesFor j) ++ [.nothing]) <+: [[bs "Server"], [bs "Mqtt"]] := by
  interval_cases j <;> simp [headSays, linesFor, tables, topFields, tableSays, serverFields, mqttFields]

theorem read_part (c : Conf) (hc : SoundSettings false c) (j : Nat) (hj : j ≤ 17) :
    ∃ T, T <+: [[bs "Server"], [bs "Mqtt"]] ∧
      read false (joined ((headLines c).take (linesFor j))) = some (T, settingVals c (fileOrder.take j)) := by
  refine ⟨_, tables_part c j hj, ?_⟩
  unfold read
  rw [lines_joined _ (fun l hl => oneLine_headLines c l (List.mem_of_mem_take hl)),
    allLines_append false _ _ _ _ (allLines_take false _ _ (linesFor j) (allLines_head c hc)) (show allLines false [[]] = some [.nothing] from rfl)]
  simp only
  rw [if_pos, values_part c j hj]
  have hsub : (fileOrder.take j).Sublist (before ++ after) := (List.take_sublist j fileOrder).trans (List.sublist_append_left _ _)
  refine ⟨?_, ?_, ?_⟩
  · exact List.Nodup.sublist (tables_part c j hj).sublist (by decide +kernel)
  · rw [values_part c j hj]
    have : (settingVals c (fileOrder.take j)).map Prod.fst = (fileOrder.take j).map place := by simp [settingVals, Function.comp_def]
    rw [this]
    exact List.Nodup.sublist (hsub.map place) before_after_nodup
  · rw [values_part c j hj]
    intro v hv t ht
    obtain ⟨s, hs, rfl⟩ := List.mem_map.mp hv
    have h1 := (tables_part c j hj).subset ht
    have h2 : s ∈ fileOrder := List.mem_of_mem_take hs
    have : ∀ s ∈ fileOrder, ∀ t ∈ [[bs "Server"], [bs "Mqtt"]], ¬ place s <+: t := by decide +kernel
    exact this s h2 t h1

theorem setting_part (c : Conf) (j : Nat) (s : Setting) :
    setting (settingVals c (fileOrder.take j)) s = if s ∈ fileOrder.take j then some (c.val s) else none := by
  have hsub : ∀ t ∈ fileOrder.take j, t ∈ before ++ after := fun t ht => List.mem_append_left _ (List.mem_of_mem_take ht)
  unfold setting
  by_cases h : inToml s = true
  · rw [if_pos h, find_settings c s ((inToml_mem s (settings_all s)).1 h) _ hsub]
    split_ifs
    · simp [toScalar_toValue]
    · rfl
  · rw [if_neg h, if_neg]
    intro hs
    exact h ((inToml_mem s (settings_all s)).2 (hsub s hs))

theorem start_part (c : Conf) (hw : WellTyped c) (hc : SoundSettings false c) (j : Nat) (hj : j ≤ 17) (fs : FS)
    (hf : fs (bs "argo.conf") = some (joined ((headLines c).take (linesFor j)))) :
    Starts fs ∧ (startup fs).interfaces = [] ∧
      ∀ s, (startup fs).val s = if s ∈ fileOrder.take j ∧ c.val s ≠ zeroOf s then c.val s else defaultConfig.val s := by
  obtain ⟨T, hT, hr⟩ := read_part c hc j hj
  have hn : T.filterMap nameIn = [] := by
    have : ∀ t ∈ [[bs "Server"], [bs "Mqtt"]], nameIn t = none := by decide +kernel
    rw [List.filterMap_eq_nil_iff]
    exact fun t ht => this t (hT.subset ht)
  have hd : fileDoc (fs (bs "argo.conf")) = some ⟨fun s => if s ∈ fileOrder.take j then some (c.val s) else none, []⟩ := by
    rw [hf]
    simp only [fileDoc, hr, docOf, hn, List.dedup_nil, interfaces]
    congr 2
    funext s
    exact setting_part c j s
  let c1 : Conf := ⟨fun s => if s ∈ fileOrder.take j then c.val s else zeroOf s, []⟩
  have hdec : decode inToml ⟨fun s => if s ∈ fileOrder.take j then some (c.val s) else none, []⟩ settings = some c1 := by
    unfold decode
    rw [if_pos]
    · congr 2
      funext s
      simp only
      by_cases h : s ∈ fileOrder.take j
      · have : inToml s = true := (inToml_mem s (settings_all s)).2 (List.mem_append_left _ (List.mem_of_mem_take h))
        simp [h, this]
      · simp [h]
    · rw [List.all_eq_true]
      intro s _
      by_cases h : s ∈ fileOrder.take j
      · simp [h, hw s]
      · simp [h]
  have hm : ∀ s, (merge c1 defaultConfig).val s = if s ∈ fileOrder.take j ∧ c.val s ≠ zeroOf s then c.val s else defaultConfig.val s := by
    intro s
    simp only [Config.merge, c1]
    by_cases h : s ∈ fileOrder.take j
    · by_cases hz : c.val s = zeroOf s <;> simp [h, hz]
    · simp [h]
  have hu : (merge c1 defaultConfig).val .uuid = .str [] := by
    rw [hm, if_neg]
    · decide +kernel
    · rintro ⟨h, _⟩
      have : Setting.uuid ∉ fileOrder := by decide
      exact this (List.mem_of_mem_take h)
  have hp : setParts (merge c1 defaultConfig) = merge c1 defaultConfig := by
    unfold setParts
    rw [hu]
    rfl
  have hread : readConfig (fileDoc (fs (bs "argo.conf"))) = (merge c1 defaultConfig, true) := by
    rw [hd]
    simp only [readConfig, hdec, hp]
  unfold Starts startup boot readFile
  rw [hread]
  exact ⟨rfl, rfl, hm⟩

/-! ## Theorems -/

/-- **C136** (no file): argo is not started without argo.conf; it does not look at the backup. -/
theorem C136_missing {fs : FS} (h : fs (bs "argo.conf") = none) : ¬ Starts fs := by
  unfold Starts readFile
  rw [h]
  decide +kernel

/-- **C136** (partial): argo was started on a file that it can read and has received any bodies, and dies at any point of saving what the next
one makes of the configuration.  Then either the next start is as if that body had not been posted; or argo.conf has a part of the text of
the new configuration from its beginning, and if that is all of it and the configuration can be saved, the next start has its settings
and interfaces.  Missing: `C136_empty_false`, `C136_broken_false`. -/
theorem C136_next_partial (nil : Conf → Bool) (fs : FS) (h : Starts fs) (posts : List (Option Doc)) (p : Option Doc) (left : FS) :
    let m := posts.foldl (post nil) (boot fs)
    let c := (admin m.1 p).1
    (admin m.1 p).2 ≠ none → CutOff (nil c) c m.2 left →
    ((Starts left ↔ Starts m.2) ∧ startup left = startup m.2) ∨
    ∃ text part, configText (nil c) c = some text ∧ part <+: text ∧ left (bs "argo.conf") = some part ∧
      (part = text → Savable false c → Starts left ∧ (∀ s, inToml s = true → (startup left).val s = c.val s) ∧
        (startup left).interfaces.Perm c.interfaces) := by
  intro m c hp hcut
  rcases cutOff_conf hcut with hl | ⟨_, text, part, h1, h2, h3⟩
  · exact .inl (same_start hl)
  · refine .inr ⟨text, part, h1, h2, h3, ?_⟩
    rintro rfl hs
    obtain ⟨saved, hsaved⟩ := Option.ne_none_iff_exists'.mp hp
    have hpost : post nil m p = (c, save (nil c) c m.2) := by unfold post; rw [hsaved]
    have hm : (posts ++ [p]).foldl (post nil) (boot fs) = (c, save (nil c) c m.2) := by
      rw [List.foldl_append]; exact hpost
    have := C130_restart_partial nil fs h (posts ++ [p])
    rw [hm] at this
    obtain ⟨r1, r2, r3⟩ := this hs
    have hfile : left (bs "argo.conf") = (save (nil c) c m.2) (bs "argo.conf") := by
      rw [h3]
      simp only [save, writeConfig, h1]
      exact (if_pos rfl).symm
    obtain ⟨e1, e2⟩ := same_start hfile
    refine ⟨e1.mpr r1, fun s hs' => ?_, ?_⟩
    · rw [e2]; exact r2 s hs'
    · rw [e2]; exact r3

/-- **C136** (backup): argo was started on its file and dies at any point of a save: if the owner copies the right one of argo.conf and argo.conf~
to argo.conf (argo does not), the next start is as the one before. -/
theorem C136_backup {nil : Bool} {c : Conf} {fs left : FS} (hs : Starts fs) (h : CutOff nil c fs left) :
    ∃ name ∈ [bs "argo.conf", bs "argo.conf~"], Starts (copied name left) ∧ startup (copied name left) = startup fs := by
  have hf : fs (bs "argo.conf") ≠ none := fun hn => C136_missing hn hs
  obtain ⟨old, ho⟩ := Option.ne_none_iff_exists'.mp hf
  rcases cutOff_conf h with h | ⟨h, _⟩
  · have := same_start (a := copied (bs "argo.conf") left) (b := fs) (by simp [copied, h])
    exact ⟨_, by simp, this.1.mpr hs, this.2⟩
  · have := same_start (a := copied (bs "argo.conf~") left) (b := fs) (by simp [copied, h, ho])
    exact ⟨_, by simp, this.1.mpr hs, this.2⟩

/-- **C136** is false (empty file): in every save there is a point at which, if argo dies there, it starts without complaint the next time, with the
defaults and without interfaces, whatever was configured before and whatever was being saved. -/
theorem C136_empty_false {nil : Bool} {c : Conf} {text : Str} (hc : configText nil c = some text) (fs : FS) :
    ∃ left, CutOff nil c fs left ∧ Starts left ∧ (∀ s, (startup left).val s = defaultConfig.val s) ∧ (startup left).interfaces = [] := by
  refine ⟨applyAll fs (writeFile bakName [(fs (bs "argo.conf")).getD []] ++ [.create confName]), ⟨text, [(fs (bs "argo.conf")).getD []], [text], _, hc, by simp, by simp,
    ?_, rfl⟩, ?_⟩
  · exact (List.prefix_append_right_inj _).mpr ⟨[.append confName text], rfl⟩
  · have he : applyAll fs (writeFile bakName [(fs (bs "argo.conf")).getD []] ++ [.create confName]) (bs "argo.conf") = some [] := by
      rw [applyAll_append, conf_eq]; simp [applyAll, FileOp.apply]
    unfold Starts startup boot readFile
    rw [he]
    refine ⟨by decide +kernel, fun s => ?_, ?_⟩
    swap
    · show (readConfig (fileDoc (some []))).1.interfaces = []
      decide +kernel
    have : ∀ s ∈ settings, (readConfig (fileDoc (some []))).1.val s = defaultConfig.val s := by decide +kernel
    exact this s (settings_all s)

/-- **C136** is false (part of the file): in every save there is a point at which, if argo dies there, it cannot be started any more. -/
theorem C136_broken_false {nil : Bool} {c : Conf} {text : Str} (hc : configText nil c = some text) (fs : FS) :
    ∃ left, CutOff nil c fs left ∧ ¬ Starts left := by
  obtain ⟨rest, hr⟩ : ∃ rest, text = [76] ++ rest := by
    unfold configText at hc
    split at hc
    · cases hc
    · injection hc with hc
      subst hc
      exact ⟨_, rfl⟩
  refine ⟨applyAll fs (writeFile bakName [(fs (bs "argo.conf")).getD []] ++ [.create confName, .append confName [76]]),
    ⟨text, [(fs (bs "argo.conf")).getD []], [[76], rest], _, hc, by simp, by simp [hr], ?_, rfl⟩, ?_⟩
  · exact (List.prefix_append_right_inj _).mpr ⟨[.append confName rest], rfl⟩
  · have he : applyAll fs (writeFile bakName [(fs (bs "argo.conf")).getD []] ++ [.create confName, .append confName [76]])
        (bs "argo.conf") = some [76] := by
      rw [applyAll_append, conf_eq]; simp [applyAll, FileOp.apply]
    unfold Starts readFile
    rw [he]
    decide +kernel

/-- **C136** is false (afterwards): once argo was started on the empty file, the first settings saved replace the backup by the empty file. -/
theorem C136_lost_false (nil : Conf → Bool) {left : FS} (h : left (bs "argo.conf") = some []) {p : Option Doc}
    (hp : (admin (boot left).1 p).2 ≠ none) : (post nil (boot left) p).2 (bs "argo.conf~") = some [] := by
  obtain ⟨saved, hsaved⟩ := Option.ne_none_iff_exists'.mp hp
  have hl : left confName = some [] := h
  have hb : (boot left).2 = left := rfl
  unfold post
  rw [hsaved, hb, bak_eq]
  simp only [save, writeConfig, hl]
  cases configText (nil (admin (boot left).1 p).1) (admin (boot left).1 p).1 with
  | none => exact if_pos rfl
  | some t => exact (if_neg (Ne.symm conf_ne_bak)).trans (if_pos rfl)

/-- **C136** is false (a mixture): in every save of a configuration of the types of the fields, with texts without NUL and numbers of 64 bits, and for
every setting that stands before the interfaces in the file, there is a point at which, if argo dies there, it starts without complaint
the next time, with the settings of the owner up to this one, the defaults for all others, and without interfaces. -/
theorem C136_mixed_false {nil : Bool} {c : Conf} {text : Str} (hc : configText nil c = some text) (hw : WellTyped c)
    (ht : ∀ s t, c.val s = .str t → (0 : UInt8) ∉ t) (hn : ∀ s n, c.val s = .int n → -2 ^ 63 ≤ n ∧ n < 2 ^ 63) (fs : FS)
    {kept lost : List Setting} (hk : kept ++ lost = fileOrder) :
    ∃ left, CutOff nil c fs left ∧ Starts left ∧ (startup left).interfaces = [] ∧
      ∀ s, (startup left).val s = if s ∈ kept ∧ c.val s ≠ zeroOf s then c.val s else defaultConfig.val s := by
  have hsound : SoundSettings false c := by
    intro s _
    cases hv : c.val s with
    | str t =>
      intro b hb
      unfold fine
      rw [if_neg (by decide)]
      rintro rfl
      exact ht s t hv hb
    | int n => exact hn s n hv
    | bool b => trivial
  obtain ⟨j, hj, hkept⟩ : ∃ j, j ≤ 17 ∧ kept = fileOrder.take j := by
    refine ⟨kept.length, ?_, by rw [← hk]; simp⟩
    have := congrArg List.length hk
    rw [List.length_append, show fileOrder.length = 17 from rfl] at this
    omega
  let part : Str := joined ((headLines c).take (linesFor j))
  obtain ⟨rest, hr⟩ : ∃ rest, text = part ++ rest := by
    rw [configText_eq] at hc
    split_ifs at hc
    injection hc with hc
    obtain ⟨r, hr⟩ := configLines_head nil c
    refine ⟨joined ((headLines c).drop (linesFor j)) ++ joined r, ?_⟩
    show text = joined ((headLines c).take (linesFor j)) ++ (joined ((headLines c).drop (linesFor j)) ++ joined r)
    rw [← List.append_assoc, ← joined_append, List.take_append_drop, ← hc, hr, joined_append]
  refine ⟨applyAll fs (writeFile bakName [(fs (bs "argo.conf")).getD []] ++ [.create confName, .append confName part]),
    ⟨text, [(fs (bs "argo.conf")).getD []], [part, rest], _, hc, by simp, by simp [hr], ?_, rfl⟩, ?_⟩
  · exact (List.prefix_append_right_inj _).mpr ⟨[.append confName rest], rfl⟩
  · rw [hkept]
    refine start_part c hw hsound j hj _ ?_
    rw [applyAll_append, conf_eq]
    simp [applyAll, FileOp.apply, part]

/-! ## A case -/

/-- A year is posted to a program started on `exampleFiles`; it dies after eleven bytes of the backup, or after the text. -/
def yearDoc : Doc := ⟨fun s => if s = .year then some (.int 1987) else none, []⟩

example : let c := (admin (boot exampleFiles).1 (some yearDoc)).1
    (admin (boot exampleFiles).1 (some yearDoc)).2 ≠ none ∧ c.val .year = .int 1987 ∧
    ∃ text, configText false c = some text ∧
      CutOff false c exampleFiles (applyAll exampleFiles [.create bakName, .append bakName (bs "[Mqtt]\nHost")]) ∧
      CutOff false c exampleFiles (applyAll exampleFiles (saveOps [bs "[Mqtt]\nHost = \"h\""] [text])) := by
  intro c
  have hi : c.interfaces = [] := by decide +kernel
  obtain ⟨text, ht⟩ : ∃ text, configText false c = some text := by
    unfold configText
    rw [if_neg (by rw [hi]; simp)]
    exact ⟨_, rfl⟩
  have he : exampleFiles (bs "argo.conf") = some (bs "[Mqtt]\nHost = \"h\"") := by decide +kernel
  refine ⟨by decide +kernel, by decide +kernel, text, ht, ⟨text, [bs "[Mqtt]\nHost", bs " = \"h\""], [text], _, ht, ?_, by simp, ?_, rfl⟩,
    ⟨text, [bs "[Mqtt]\nHost = \"h\""], [text], _, ht, ?_, by simp, List.prefix_refl _, rfl⟩⟩
  · rw [he]; decide +kernel
  · exact ⟨_, rfl⟩
  · rw [he]; simp

/-- The configuration of that case, with the settings of the server and without those of the broker. -/
example : ∃ text, configText false (boot exampleFiles).1 = some text ∧ WellTyped (boot exampleFiles).1 ∧
    (∀ s t, (boot exampleFiles).1.val s = .str t → (0 : UInt8) ∉ t) ∧
    (∀ s n, (boot exampleFiles).1.val s = .int n → -2 ^ 63 ≤ n ∧ n < 2 ^ 63) ∧
    fileOrder.take 9 ++ fileOrder.drop 9 = fileOrder ∧
    Setting.serverPort ∈ fileOrder.take 9 ∧ (boot exampleFiles).1.val .serverPort ≠ zeroOf .serverPort ∧
    Setting.mqttHost ∉ fileOrder.take 9 ∧ (boot exampleFiles).1.val .mqttHost ≠ defaultConfig.val .mqttHost := by
  have hi : (boot exampleFiles).1.interfaces = [] := by decide +kernel
  have h1 : ∀ s ∈ settings, ((boot exampleFiles).1.val s).sameType (zeroOf s) = true ∧
      (match (boot exampleFiles).1.val s with | .str t => !t.contains (0 : UInt8) | .int n => decide (-2 ^ 63 ≤ n ∧ n < 2 ^ 63) | .bool _ => true) = true := by
    decide +kernel
  refine ⟨_, by unfold configText; rw [if_neg (by rw [hi]; simp)], fun s => (h1 s (settings_all s)).1, fun s t h => ?_, fun s n h => ?_,
    List.take_append_drop _ _, by decide, by decide +kernel, by decide, by decide +kernel⟩
  · have := (h1 s (settings_all s)).2
    rw [h] at this
    simpa using this
  · have := (h1 s (settings_all s)).2
    rw [h] at this
    simpa using this

/-- The host of the broker is gone after a start on the empty file. -/
example : startup exampleFiles ≠ startup (fun n => if n = bs "argo.conf" then some [] else exampleFiles n) := by
  intro h
  have h := congrArg (fun c : Conf => c.val .mqttHost) h
  revert h
  decide +kernel

end Argo.Toml
