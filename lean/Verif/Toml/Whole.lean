import Verif.Toml.Text

set_option autoImplicit false

/-! # Lemmas: the whole file -/

namespace Argo.Toml

open Argo Config Signalk

/-- The header of a table. -/
def headLine (name : Str) : Str := bs "[" ++ keyText name ++ bs "]"
/-- The header of the table of an interface. -/
def subLine (k : Str) : Str :=
  List.replicate 2 32 ++ bs "[" ++ keyText (bs "Interfaces") ++ bs "." ++ keyText k ++ bs "]"
/-- The lines of an interface. -/
def interfaceLines (e : Str × Interface) : List Str :=
  [subLine e.1, pairLine 2 (bs "Path") (.str e.2.path), pairLine 2 (bs "Type") (.str e.2.type), pairLine 2 (bs "Speed") (.int e.2.speed)]
/-- The lines of a table. -/
def tableLines (c : Conf) (name : Str) (fields : List (Str × Setting)) : List Str :=
  [[], headLine name] ++ fields.map (fun f => pairLine 1 f.1 (c.val f.2))
/-- The interfaces in the order of the file. -/
def sorted (l : List (Str × Interface)) : List (Str × Interface) := l.insertionSort (fun a b => leBytes a.1 b.1 = true)
/-- The lines of the interfaces. -/
def interfacesLines (nil : Bool) (l : List (Str × Interface)) : List Str :=
  if nil ∧ l = [] then [] else [[], headLine (bs "Interfaces")] ++ (sorted l).flatMap interfaceLines
/-- The lines of the file. -/
def configLines (nil : Bool) (c : Conf) : List Str :=
  topFields.map (fun f => pairLine 0 f.1 (c.val f.2)) ++ tableLines c (bs "Server") serverFields ++ tableLines c (bs "Mqtt") mqttFields ++
    interfacesLines nil c.interfaces ++ tableLines c (bs "Vessel") vesselFields

theorem joined_pairs (indent : Nat) (c : Conf) (fs : List (Str × Setting)) :
    joined (fs.map (fun f => pairLine indent f.1 (c.val f.2))) = fs.flatMap (fun f => pairText indent f.1 (c.val f.2)) := by
  simp only [joined, List.flatMap_map, pairText_eq]

theorem joined_table (c : Conf) (name : Str) (fs : List (Str × Setting)) : joined (tableLines c name fs) = tableText c name fs := by
  rw [tableLines, joined_append, joined_pairs]
  simp [joined, tableText, headLine]

theorem joined_interface (e : Str × Interface) : joined (interfaceLines e) = interfaceText e := by
  simp [joined, interfaceLines, interfaceText, subLine, pairText_eq]

theorem joined_interfaces (nil : Bool) (l : List (Str × Interface)) : joined (interfacesLines nil l) = interfacesText nil l := by
  unfold interfacesLines interfacesText
  split_ifs
  · rfl
  · rw [joined_append]
    have : joined ((sorted l).flatMap interfaceLines) = (sorted l).flatMap interfaceText := by
      generalize sorted l = s
      induction s with
      | nil => rfl
      | cons e s ih => rw [List.flatMap_cons, List.flatMap_cons, joined_append, ih, joined_interface]
    rw [this]
    simp [joined, headLine, sorted]

theorem configText_eq (nil : Bool) (c : Conf) :
    configText nil c = if c.interfaces.any (fun e => e.1 = []) then none else some (joined (configLines nil c)) := by
  unfold configText configLines
  simp only [joined_append, joined_pairs, joined_table, joined_interfaces]

/-! ## What the lines say -/

def tableSays (c : Conf) (name : Str) (fields : List (Str × Setting)) : List Line :=
  [.nothing, .table [name]] ++ fields.map (fun f => .pair f.1 (toValue (c.val f.2)))

/-- What the lines of an interface say, when its header reads as `p`. -/
def interfaceSays (p : List Str) (i : Interface) : List Line :=
  [.table p, .pair (bs "Path") (.str i.path), .pair (bs "Type") (.str i.type), .pair (bs "Speed") (.int i.speed)]

def interfacesSays (nil : Bool) (head : Str → List Str) (l : List (Str × Interface)) : List Line :=
  if nil ∧ l = [] then [] else [.nothing, .table [bs "Interfaces"]] ++ (sorted l).flatMap (fun e => interfaceSays (head e.1) e.2)

/-- What the file says, when the header of the interface `k` reads as `head k`. -/
def configSays (nil : Bool) (head : Str → List Str) (c : Conf) : List Line :=
  topFields.map (fun f => .pair f.1 (toValue (c.val f.2))) ++ tableSays c (bs "Server") serverFields ++ tableSays c (bs "Mqtt") mqttFields ++
    interfacesSays nil head c.interfaces ++ tableSays c (bs "Vessel") vesselFields

theorem line_blank (strict : Bool) : line strict [] = some .nothing := rfl

theorem line_head (strict : Bool) (name : Str) (h0 : name ≠ []) (hk : ∀ b ∈ name, keeps strict b) :
    line strict (headLine name) = some (.table [name]) := by
  have h1 : bs "[" = [91] := by decide +kernel
  have h2 : bs "]" = [93] := by decide +kernel
  have hkey := key_text strict name h0 hk [93] (by intro b hb; simp at hb; subst hb; decide)
  have hs : skip (keyText name ++ [93]) = keyText name ++ [93] := by
    apply skip_none
    unfold keyText
    split_ifs with h
    · obtain ⟨a, t, rfl⟩ := List.exists_cons_of_ne_nil h0
      intro b hb
      simp at hb; subst hb
      have := bare_not (b := a) (by simp only [List.all_cons, Bool.and_eq_true] at h; exact h.1)
      unfold isBlank; simp [this]
    · intro b hb; simp at hb; subst hb; rfl
  unfold line headLine
  rw [h1, h2, List.append_assoc]
  have hsk : skip ([91] ++ (keyText name ++ [93])) = 91 :: (keyText name ++ [93]) := rfl
  rw [hsk]
  simp only [show ¬ (91 : UInt8) = 35 by decide, if_false, if_true]
  simp only [path, hs, hkey]
  rfl

/-- The header of an interface, as far as it does not depend on the name. -/
theorem line_sub' (strict : Bool) (k : Str) (h0 : k ≠ []) :
    line strict (subLine k) = match path strict ((keyText (bs "Interfaces") ++ 46 :: (keyText k ++ [93])).length) (keyText k ++ [93]) with
      | none => none
      | some (p, e) => if ends e then some (.table (bs "Interfaces" :: p)) else none := by
  have h1 : bs "[" = [91] := by decide +kernel
  have h2 : bs "]" = [93] := by decide +kernel
  have h3 : bs "." = [46] := by decide +kernel
  have hi : keyText (bs "Interfaces") = 73 :: bs "nterfaces" := by decide +kernel
  have hb : (bs "Interfaces").all bare = true ∧ bs "Interfaces" ≠ [] := by decide +kernel
  have hi' : keyText (bs "Interfaces") = bs "Interfaces" := by decide +kernel
  have hkey := key_bare strict (bs "Interfaces") hb.2 hb.1 (46 :: (keyText k ++ [93])) (by intro b hb; simp at hb; subst hb; decide)
  have he : subLine k = [32, 32] ++ (91 :: (keyText (bs "Interfaces") ++ 46 :: (keyText k ++ [93]))) := by
    simp [subLine, h1, h2, h3, List.replicate]
  have hsk : skip ([32, 32] ++ (91 :: (keyText (bs "Interfaces") ++ 46 :: (keyText k ++ [93])))) =
    91 :: (keyText (bs "Interfaces") ++ 46 :: (keyText k ++ [93])) := rfl
  have hs : skip (keyText (bs "Interfaces") ++ 46 :: (keyText k ++ [93])) = keyText (bs "Interfaces") ++ 46 :: (keyText k ++ [93]) := by
    apply skip_none
    rw [hi]; intro b hb; simp at hb; subst hb; rfl
  unfold line
  rw [he, hsk]
  simp only [show ¬ (91 : UInt8) = 35 by decide, if_false, if_true]
  generalize hn : (keyText (bs "Interfaces") ++ 46 :: (keyText k ++ [93])).length = n
  rw [hi'] at hs hn ⊢
  simp only [path, hs, hkey]
  have hd : skip (46 :: (keyText k ++ [93])) = 46 :: (keyText k ++ [93]) := rfl
  rw [hd]
  simp only [show ¬ (46 : UInt8) = 93 by decide, if_false, if_true]
  cases path strict n (keyText k ++ [93]) with
  | none => rfl
  | some p => rfl

theorem keyText_skip (k : Str) (h0 : k ≠ []) (r : Str) : skip (keyText k ++ r) = keyText k ++ r := by
  apply skip_none
  unfold keyText
  split_ifs with h
  · obtain ⟨a, t, rfl⟩ := List.exists_cons_of_ne_nil h0
    intro b hb
    simp at hb; subst hb
    have := bare_not (b := a) (by simp only [List.all_cons, Bool.and_eq_true] at h; exact h.1)
    unfold isBlank; simp [this]
  · intro b hb; simp at hb; subst hb; rfl

theorem line_sub (strict : Bool) (k : Str) (h0 : k ≠ []) (hk : ∀ b ∈ k, keeps strict b) :
    line strict (subLine k) = some (.table [bs "Interfaces", k]) := by
  rw [line_sub' strict k h0]
  have hkey := key_text strict k h0 hk [93] (by intro b hb; simp at hb; subst hb; decide)
  obtain ⟨n, hn⟩ : ∃ n, (keyText (bs "Interfaces") ++ 46 :: (keyText k ++ [93])).length = n + 1 := ⟨_, by simp; rfl⟩
  rw [hn]
  simp only [path, keyText_skip k h0, hkey]
  rfl

theorem fields_bare : ∀ f ∈ topFields ++ serverFields ++ mqttFields ++ vesselFields, f.1 ≠ [] ∧ f.1.all bare = true := by decide +kernel

theorem members_bare : ∀ f ∈ [bs "Path", bs "Type", bs "Speed"], f ≠ [] ∧ f.all bare = true := by decide +kernel

theorem fields_inToml : ∀ f ∈ topFields ++ serverFields ++ mqttFields ++ vesselFields, inToml f.2 = true := by decide +kernel

theorem sections_keep : ∀ strict : Bool, ∀ f ∈ [bs "Server", bs "Mqtt", bs "Interfaces", bs "Vessel"], f ≠ [] ∧ ∀ b ∈ f, b ≠ 92 ∧ banned strict b = false := by
  decide +kernel

theorem perm_sorted (l : List (Str × Interface)) : (sorted l).Perm l := List.perm_insertionSort _ l

/-- The settings are such that they come back. -/
def SoundSettings (strict : Bool) (c : Conf) : Prop := ∀ s, inToml s = true → Sound strict (c.val s)

/-- The members of an interface are such that they come back. -/
def SoundInterface (strict : Bool) (i : Interface) : Prop :=
  (∀ b ∈ i.path, fine strict b) ∧ (∀ b ∈ i.type, fine strict b) ∧ i.speed < 2 ^ 63

theorem allLines_table (strict : Bool) (c : Conf) (hc : SoundSettings strict c) (name : Str) (hn : name ∈ [bs "Server", bs "Mqtt", bs "Interfaces", bs "Vessel"])
    (fs : List (Str × Setting)) (hf : ∀ f ∈ fs, f ∈ topFields ++ serverFields ++ mqttFields ++ vesselFields) :
    allLines strict (tableLines c name fs) = some (tableSays c name fs) := by
  have hh := sections_keep strict name hn
  refine allLines_append strict _ _ _ _ ?_ (allLines_map strict fs _ _ ?_)
  · simp only [allLines, line_blank, line_head strict name hh.1 hh.2]
  · intro f h
    have h := hf f h
    exact line_pair strict 1 f.1 (fields_bare f h).1 (fields_bare f h).2 _ (hc _ (fields_inToml f h))

theorem allLines_interface (strict : Bool) (head : Str → List Str) (e : Str × Interface) (hi : SoundInterface strict e.2)
    (hh : line strict (subLine e.1) = some (.table (head e.1))) :
    allLines strict (interfaceLines e) = some (interfaceSays (head e.1) e.2) := by
  have h1 := line_pair strict 2 (bs "Path") (members_bare _ (by simp)).1 (members_bare _ (by simp)).2 (.str e.2.path) hi.1
  have h2 := line_pair strict 2 (bs "Type") (members_bare _ (by simp)).1 (members_bare _ (by simp)).2 (.str e.2.type) hi.2.1
  have h3 := line_pair strict 2 (bs "Speed") (members_bare _ (by simp)).1 (members_bare _ (by simp)).2 (.int e.2.speed)
    (by have := hi.2.2; constructor <;> omega)
  simp only [interfaceLines, allLines, hh, h1, h2, h3]
  rfl

theorem allLines_flatMap {α : Type} (strict : Bool) (l : List α) (f : α → List Str) (g : α → List Line)
    (h : ∀ a ∈ l, allLines strict (f a) = some (g a)) : allLines strict (l.flatMap f) = some (l.flatMap g) := by
  induction l with
  | nil => rfl
  | cons a l ih =>
    rw [List.flatMap_cons, List.flatMap_cons]
    exact allLines_append strict _ _ _ _ (h a (by simp)) (ih (fun x hx => h x (by simp [hx])))

theorem allLines_config (strict nil : Bool) (head : Str → List Str) (c : Conf) (hc : SoundSettings strict c)
    (hi : ∀ e ∈ c.interfaces, SoundInterface strict e.2)
    (hh : ∀ e ∈ c.interfaces, line strict (subLine e.1) = some (.table (head e.1))) :
    allLines strict (configLines nil c ++ [[]]) = some (configSays nil head c ++ [.nothing]) := by
  refine allLines_append strict _ _ _ _ ?_ rfl
  refine allLines_append strict _ _ _ _ (allLines_append strict _ _ _ _ (allLines_append strict _ _ _ _
    (allLines_append strict _ _ _ _ ?_ ?_) ?_) ?_) ?_
  · refine allLines_map strict _ _ _ ?_
    intro f h
    have h : f ∈ topFields ++ serverFields ++ mqttFields ++ vesselFields := by simp [h]
    exact line_pair strict 0 f.1 (fields_bare f h).1 (fields_bare f h).2 _ (hc _ (fields_inToml f h))
  · exact allLines_table strict c hc _ (by simp) _ (by intro f h; simp [h])
  · exact allLines_table strict c hc _ (by simp) _ (by intro f h; simp [h])
  · unfold interfacesLines interfacesSays
    split_ifs
    · rfl
    · have hk := sections_keep strict (bs "Interfaces") (by simp)
      refine allLines_append strict _ _ _ _ ?_ (allLines_flatMap strict _ _ _ ?_)
      · simp only [allLines, line_blank, line_head strict _ hk.1 hk.2]
      · intro e he
        have he := (perm_sorted _).mem_iff.1 he
        exact allLines_interface strict head e (hi e he) (hh e he)
  · exact allLines_table strict c hc _ (by simp) _ (by intro f h; simp [h])

/-! ## One line each -/

theorem oneLine_pair (indent : Nat) (k : Str) (hk : k.all bare = true) (v : Scalar) : OneLine (pairLine indent k v) := by
  have hkt : keyText k = k := by unfold keyText; rw [bare_eq, if_pos hk]
  have hk10 : (10 : UInt8) ∉ k := by
    intro h
    have := List.all_eq_true.mp hk 10 h
    revert this; decide
  have heq : bs " = " = [32, 61, 32] := by decide +kernel
  have hval : (10 : UInt8) ∉ scalarText v ∧ (scalarText v).getLast? ≠ some 13 ∧ scalarText v ≠ [] := by
    cases v with
    | str s =>
      refine ⟨?_, by rw [scalarText, quoted, List.getLast?_append_of_ne_nil _ (by simp)]; decide, by simp [scalarText, quoted]⟩
      simp only [scalarText, quoted, List.cons_append, List.mem_cons, List.mem_append, List.mem_flatMap, not_or]
      refine ⟨by decide, ?_, by simp⟩
      rintro ⟨b, _, hb⟩
      unfold escaped at hb
      split_ifs at hb with h1 h2 h3 h4 h5 <;> simp at hb
      exact h2 hb.symm
    | bool b => cases b <;> decide +kernel
    | int n =>
      obtain ⟨b, l, hb⟩ := int_ne_nil n
      refine ⟨fun h => ?_, fun h => ?_, by rw [scalarText, hb]; simp⟩
      · rcases int_bytes n 10 h with h | h <;> revert h <;> decide
      · rcases int_bytes n 13 (List.mem_of_getLast? h) with h | h <;> revert h <;> decide
  unfold pairLine OneLine
  rw [hkt, heq]
  constructor
  · simp [hk10, hval.1]
  · rw [List.getLast?_append_of_ne_nil _ hval.2.2]; exact hval.2.1

theorem oneLine_head (name : Str) (h : (10 : UInt8) ∉ name) : OneLine (headLine name) := by
  have h1 : bs "[" = [91] := by decide +kernel
  have h2 : bs "]" = [93] := by decide +kernel
  unfold OneLine headLine keyText
  rw [h1, h2]
  refine ⟨?_, by rw [List.getLast?_append_of_ne_nil _ (by simp)]; decide⟩
  split_ifs
  · simp [h]
  · simp only [List.cons_append, List.nil_append, List.mem_cons, List.mem_append, List.mem_flatMap, List.not_mem_nil, or_false, not_or]
    refine ⟨by decide, by decide, ⟨?_, by decide⟩, by decide⟩
    rintro ⟨b, hb, h'⟩
    split_ifs at h' <;> simp at h'
    subst h'; exact h hb

theorem oneLine_sub (k : Str) (h : (10 : UInt8) ∉ k) : OneLine (subLine k) := by
  have h1 : bs "[" = [91] := by decide +kernel
  have h2 : bs "]" = [93] := by decide +kernel
  have h3 : bs "." = [46] := by decide +kernel
  have h4 : (10 : UInt8) ∉ keyText (bs "Interfaces") := by decide +kernel
  have hk : (10 : UInt8) ∉ keyText k := by
    have := (oneLine_head k h).1
    unfold headLine at this
    simp only [List.mem_append, not_or] at this
    exact this.1.2
  unfold OneLine subLine
  rw [h1, h2, h3]
  exact ⟨by simp [h4, hk], by rw [List.getLast?_append_of_ne_nil _ (by simp)]; decide⟩

theorem oneLine_config (nil : Bool) (c : Conf) (h : ∀ e ∈ c.interfaces, (10 : UInt8) ∉ e.1) : ∀ l ∈ configLines nil c, OneLine l := by
  have hblank : OneLine [] := by simp [OneLine]
  have htable : ∀ name ∈ [bs "Server", bs "Mqtt", bs "Interfaces", bs "Vessel"], ∀ fs : List (Str × Setting),
      (∀ f ∈ fs, f ∈ topFields ++ serverFields ++ mqttFields ++ vesselFields) → ∀ l ∈ tableLines c name fs, OneLine l := by
    intro name hn fs hf l hl
    simp only [tableLines, List.mem_append, List.mem_cons, List.not_mem_nil, or_false, List.mem_map] at hl
    rcases hl with (rfl | rfl) | ⟨f, hfm, rfl⟩
    · exact hblank
    · refine oneLine_head name ?_
      revert hn; revert name; decide +kernel
    · exact oneLine_pair 1 _ (fields_bare f (hf f hfm)).2 _
  intro l hl
  simp only [configLines, List.mem_append] at hl
  rcases hl with (((hl | hl) | hl) | hl) | hl
  · obtain ⟨f, hf, rfl⟩ := List.mem_map.mp hl
    exact oneLine_pair 0 _ (fields_bare f (by simp [hf])).2 _
  · exact htable _ (by simp) _ (by intro f h; simp [h]) l hl
  · exact htable _ (by simp) _ (by intro f h; simp [h]) l hl
  · unfold interfacesLines at hl
    split_ifs at hl
    · simp at hl
    · simp only [List.mem_append, List.mem_cons, List.not_mem_nil, or_false, List.mem_flatMap] at hl
      rcases hl with (rfl | rfl) | ⟨e, he, hl⟩
      · exact hblank
      · exact oneLine_head _ (by decide +kernel)
      · have he := (perm_sorted _).mem_iff.1 he
        simp only [interfaceLines, List.mem_cons, List.not_mem_nil, or_false] at hl
        rcases hl with rfl | rfl | rfl | rfl
        · exact oneLine_sub _ (h e he)
        all_goals exact oneLine_pair 2 _ (members_bare _ (by simp)).2 _
  · exact htable _ (by simp) _ (by intro f h; simp [h]) l hl

end Argo.Toml
