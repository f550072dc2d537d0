import Verif.Toml.Whole
import Verif.Toml.Decode

set_option autoImplicit false

/-! # Lemmas: what comes back -/

namespace Argo.Toml

open Argo Config Signalk

/-! ## Tables and values of the file -/

theorem tables_append (a b : List Line) : tables (a ++ b) = tables a ++ tables b := by
  induction a with
  | nil => rfl
  | cons x a ih => cases x <;> simp [tables, ih]

theorem tables_pairs {α : Type} (l : List α) (f : α → Str) (g : α → Value) : tables (l.map (fun a => .pair (f a) (g a))) = [] := by
  induction l with
  | nil => rfl
  | cons a l ih => simp [tables, ih]

theorem values_pairs {α : Type} (p : List Str) (l : List α) (f : α → Str) (g : α → Value) (r : List Line) :
    values p (l.map (fun a => .pair (f a) (g a)) ++ r) = l.map (fun a => (p ++ [f a], g a)) ++ values p r := by
  induction l with
  | nil => rfl
  | cons a l ih => simp [values, ih]

theorem values_table (p : List Str) (c : Conf) (name : Str) (fs : List (Str × Setting)) (r : List Line) :
    values p (tableSays c name fs ++ r) = fs.map (fun f => ([name, f.1], toValue (c.val f.2))) ++ values [name] r := by
  have : tableSays c name fs ++ r = .nothing :: .table [name] :: (fs.map (fun f => .pair f.1 (toValue (c.val f.2))) ++ r) := by
    simp [tableSays]
  rw [this]
  simp only [values, values_pairs]
  rfl

/-- The values of an interface whose header reads as `p`. -/
def interfaceVals (p : List Str) (i : Interface) : List (List Str × Value) :=
  [(p ++ [bs "Path"], .str i.path), (p ++ [bs "Type"], .str i.type), (p ++ [bs "Speed"], .int i.speed)]

theorem values_interfaces (p : List Str) (head : Str → List Str) (l : List (Str × Interface)) (c : Conf) (name : Str)
    (fs : List (Str × Setting)) (r : List Line) :
    values p (l.flatMap (fun e => interfaceSays (head e.1) e.2) ++ (tableSays c name fs ++ r)) =
      l.flatMap (fun e => interfaceVals (head e.1) e.2) ++ values [] (tableSays c name fs ++ r) := by
  induction l generalizing p with
  | nil => simp only [List.flatMap_nil, List.nil_append, values_table]
  | cons e l ih =>
    have h1 : ∀ r, values p (interfaceSays (head e.1) e.2 ++ r) = interfaceVals (head e.1) e.2 ++ values (head e.1) r := fun r => rfl
    rw [List.flatMap_cons, List.append_assoc, h1, ih, List.flatMap_cons, List.append_assoc]

/-- The values of settings. -/
def settingVals (c : Conf) (l : List Setting) : List (List Str × Value) := l.map (fun s => (place s, toValue (c.val s)))

/-- The settings before and after the interfaces. -/
def before : List Setting := (topFields ++ serverFields ++ mqttFields).map Prod.snd
def after : List Setting := vesselFields.map Prod.snd

theorem places : (∀ f ∈ topFields, [f.1] = place f.2) ∧ (∀ f ∈ serverFields, [bs "Server", f.1] = place f.2) ∧
    (∀ f ∈ mqttFields, [bs "Mqtt", f.1] = place f.2) ∧ (∀ f ∈ vesselFields, [bs "Vessel", f.1] = place f.2) := by decide +kernel

theorem vals_fields (c : Conf) (fs : List (Str × Setting)) (p : List Str) (h : ∀ f ∈ fs, p ++ [f.1] = place f.2) :
    fs.map (fun f => (p ++ [f.1], toValue (c.val f.2))) = settingVals c (fs.map Prod.snd) := by
  simp only [settingVals, List.map_map]
  apply List.map_congr_left
  intro f hf
  simp only [h f hf, Function.comp]

/-- The values of the interfaces. -/
def ifVals (head : Str → List Str) (l : List (Str × Interface)) : List (List Str × Value) :=
  (sorted l).flatMap (fun e => interfaceVals (head e.1) e.2)

theorem values_config (nil : Bool) (head : Str → List Str) (c : Conf) :
    values [] (configSays nil head c ++ [.nothing]) =
      settingVals c before ++ ifVals head c.interfaces ++ settingVals c after := by
  unfold configSays
  have hs : ∀ a b, settingVals c (a ++ b) = settingVals c a ++ settingVals c b := by intro a b; simp [settingVals]
  simp only [List.append_assoc]
  rw [values_pairs, values_table, values_table]
  have hrest : values [bs "Mqtt"] (interfacesSays nil head c.interfaces ++ (tableSays c (bs "Vessel") vesselFields ++ [.nothing])) =
      ifVals head c.interfaces ++ values [] (tableSays c (bs "Vessel") vesselFields ++ [.nothing]) := by
    unfold interfacesSays ifVals
    split_ifs with h
    · rw [h.2]
      simp only [List.nil_append, values_table]
      rfl
    · rw [List.append_assoc]
      simp only [List.cons_append, List.nil_append, values]
      rw [values_interfaces]
  rw [hrest, values_table]
  have h1 := vals_fields c topFields [] places.1
  have h2 := vals_fields c serverFields [bs "Server"] places.2.1
  have h3 := vals_fields c mqttFields [bs "Mqtt"] places.2.2.1
  have h4 := vals_fields c vesselFields [bs "Vessel"] places.2.2.2
  simp only [List.cons_append, List.nil_append] at h1 h2 h3 h4
  simp only [before, after, List.map_append, hs, ← h1, ← h2, ← h3, ← h4, List.append_assoc, List.nil_append, values, List.append_nil]

theorem tables_config (nil : Bool) (head : Str → List Str) (c : Conf) :
    tables (configSays nil head c ++ [.nothing]) = [[bs "Server"], [bs "Mqtt"]] ++
      (if nil ∧ c.interfaces = [] then [] else [bs "Interfaces"] :: (sorted c.interfaces).map (fun e => head e.1)) ++ [[bs "Vessel"]] := by
  have ht : ∀ name fs, tables (tableSays c name fs) = [[name]] := by
    intro name fs; simp [tableSays, tables, tables_append, tables_pairs]
  unfold configSays
  simp only [tables_append, ht, tables_pairs]
  have hi : tables (interfacesSays nil head c.interfaces) =
      if nil ∧ c.interfaces = [] then [] else [bs "Interfaces"] :: (sorted c.interfaces).map (fun e => head e.1) := by
    unfold interfacesSays
    split_ifs
    · rfl
    · simp only [tables_append, tables, List.cons_append, List.nil_append]
      congr 1
      generalize sorted c.interfaces = l
      induction l with
      | nil => rfl
      | cons e l ih =>
        have h1 : tables (interfaceSays (head e.1) e.2) = [head e.1] := rfl
        rw [List.flatMap_cons, tables_append, h1, ih]
        rfl
  rw [hi]
  simp [tables]

/-! ## The file is consistent -/

/-- The header of an interface. -/
abbrev own (k : Str) : List Str := [bs "Interfaces", k]

theorem before_after_nodup : ((before ++ after).map place).Nodup := by decide +kernel

theorem place_facts : ∀ s ∈ before ++ after, (place s).length ≤ 2 ∧ place s ≠ [] ∧
    (place s).head? ≠ some (bs "Interfaces") ∧ ∀ t ∈ [[bs "Server"], [bs "Mqtt"], [bs "Interfaces"], [bs "Vessel"]], ¬ place s <+: t := by
  decide +kernel

theorem members_ne : bs "Path" ≠ bs "Type" ∧ bs "Path" ≠ bs "Speed" ∧ bs "Type" ≠ bs "Speed" := by decide +kernel

theorem ifVals_nodup (l : List (Str × Interface)) (h : (l.map Prod.fst).Nodup) : ((ifVals own l).map Prod.fst).Nodup := by
  have hs : ((sorted l).map Prod.fst).Nodup := ((perm_sorted l).map _).nodup_iff.2 h
  unfold ifVals
  generalize sorted l = s at hs
  induction s with
  | nil => simp
  | cons e s ih =>
    rw [List.map_cons, List.nodup_cons] at hs
    have ih := ih hs.2
    rw [List.flatMap_cons, List.map_append, List.nodup_append]
    refine ⟨?_, ih, ?_⟩
    · have := members_ne
      simp [interfaceVals, this]
    · intro a ha b hb hab
      subst hab
      obtain ⟨x, hx, rfl⟩ := List.mem_map.mp hb
      obtain ⟨e', he', hx⟩ := List.mem_flatMap.mp hx
      have h1 : x.1[1]? = some e'.1 := by
        simp only [interfaceVals, List.mem_cons, List.not_mem_nil, or_false] at hx
        rcases hx with rfl | rfl | rfl <;> rfl
      have h2 : x.1[1]? = some e.1 := by
        obtain ⟨y, hy, hxy⟩ := List.mem_map.mp ha
        rw [← hxy]
        simp only [interfaceVals, List.mem_cons, List.not_mem_nil, or_false] at hy
        rcases hy with rfl | rfl | rfl <;> rfl
      rw [h1] at h2
      exact hs.1 (List.mem_map.mpr ⟨e', he', Option.some.inj h2⟩)

theorem ifVals_shape (l : List (Str × Interface)) : ∀ v ∈ ifVals own l, v.1.length = 3 ∧ v.1.head? = some (bs "Interfaces") := by
  intro v hv
  obtain ⟨e, _, hv⟩ := List.mem_flatMap.mp hv
  simp only [interfaceVals, List.mem_cons, List.not_mem_nil, or_false] at hv
  rcases hv with rfl | rfl | rfl <;> exact ⟨rfl, rfl⟩

theorem consistent_config (nil : Bool) (c : Conf) (h : (c.interfaces.map Prod.fst).Nodup) :
    Consistent (configSays nil own c ++ [.nothing]) := by
  have hs : ((sorted c.interfaces).map Prod.fst).Nodup := ((perm_sorted _).map _).nodup_iff.2 h
  unfold Consistent
  rw [tables_config, values_config]
  refine ⟨?_, ?_, ?_⟩
  · have hl : ((sorted c.interfaces).map (fun e => own e.1)).Nodup := by
      have : (sorted c.interfaces).map (fun e => own e.1) = ((sorted c.interfaces).map Prod.fst).map own := by simp
      rw [this]
      exact hs.map (fun a b h => by simpa [own] using h)
    have hne : ∀ t : Str, [t] ∉ (sorted c.interfaces).map (fun e => own e.1) := by
      intro t ht
      obtain ⟨e, _, he⟩ := List.mem_map.mp ht
      simp [own] at he
    have hd : [[bs "Server"], [bs "Mqtt"], [bs "Interfaces"], [bs "Vessel"]].Nodup := by decide +kernel
    simp only [List.nodup_cons, List.mem_cons, List.not_mem_nil, not_or, or_false, not_false_eq_true, List.nodup_nil, and_true] at hd
    obtain ⟨⟨a1, a2, a3⟩, ⟨b1, b2⟩, c1⟩ := hd
    split_ifs
    · simp only [List.append_nil, List.cons_append, List.nil_append, List.nodup_cons, List.mem_cons, List.not_mem_nil, not_or, or_false,
        not_false_eq_true, List.nodup_nil, and_true]
      exact ⟨⟨a1, a3⟩, b2⟩
    · simp only [List.cons_append, List.nil_append, List.nodup_cons, List.mem_cons, List.mem_append, List.not_mem_nil, not_or, or_false]
      refine ⟨⟨a1, a2, hne _, a3⟩, ⟨b1, hne _, b2⟩, ⟨hne _, c1⟩, ?_⟩
      rw [List.nodup_append]
      refine ⟨hl, by simp, ?_⟩
      intro a ha b hb hab
      subst hab
      simp at hb
      subst hb
      exact hne _ ha
  · have hp : ((settingVals c before ++ ifVals own c.interfaces ++ settingVals c after).map Prod.fst).Perm
        ((before ++ after).map place ++ (ifVals own c.interfaces).map Prod.fst) := by
      have e1 : ∀ l, (settingVals c l).map Prod.fst = l.map place := by intro l; simp [settingVals]
      simp only [List.map_append, e1, List.append_assoc]
      exact List.perm_append_comm.append_left _
    rw [hp.nodup_iff, List.nodup_append]
    refine ⟨before_after_nodup, ifVals_nodup _ h, ?_⟩
    intro a ha b hb hab
    subst hab
    obtain ⟨s, hs, rfl⟩ := List.mem_map.mp ha
    obtain ⟨v, hv, he⟩ := List.mem_map.mp hb
    have h1 := (place_facts s hs).1
    have h2 := (ifVals_shape _ v hv).1
    rw [he] at h2
    omega
  · intro v hv t ht hpre
    have htabs : t ∈ [[bs "Server"], [bs "Mqtt"], [bs "Interfaces"], [bs "Vessel"]] ∨ ∃ k, t = own k := by
      simp only [List.mem_append] at ht
      rcases ht with (ht | ht) | ht
      · left; simp at ht; rcases ht with rfl | rfl <;> simp
      · split_ifs at ht
        · simp at ht
        · simp only [List.mem_cons, List.mem_map] at ht
          rcases ht with rfl | ⟨e, _, rfl⟩
          · left; simp
          · exact Or.inr ⟨_, rfl⟩
      · left; simp at ht; subst ht; simp
    have hset : (∃ s ∈ before ++ after, v.1 = place s) ∨ (v.1.length = 3) := by
      simp only [List.mem_append, settingVals, List.mem_map] at hv
      rcases hv with (⟨s, hs, rfl⟩ | hv) | ⟨s, hs, rfl⟩
      · exact Or.inl ⟨s, by simp [hs], rfl⟩
      · exact Or.inr (ifVals_shape _ v hv).1
      · exact Or.inl ⟨s, by simp [hs], rfl⟩
    have hlen := hpre.length_le
    rcases hset with ⟨s, hs, he⟩ | hv
    · rw [he] at hpre
      obtain ⟨_, hne, hhead, hno⟩ := place_facts s hs
      rcases htabs with ht | ⟨k, rfl⟩
      · exact hno t ht hpre
      · obtain ⟨r, hr⟩ := hpre
        obtain ⟨a, p, hp⟩ := List.exists_cons_of_ne_nil hne
        rw [hp] at hr hhead
        simp [own] at hr
        exact hhead (by simp [hr.1])
    · rcases htabs with ht | ⟨k, rfl⟩
      · simp at ht
        rcases ht with rfl | rfl | rfl | rfl <;> simp [hv] at hlen
      · simp [hv] at hlen

/-! ## Decoding -/

theorem place_inj : ∀ s ∈ before ++ after, ∀ t ∈ before ++ after, (place s).map lower = (place t).map lower → s = t := by
  decide +kernel

theorem inToml_mem : ∀ s ∈ settings, inToml s = true ↔ s ∈ before ++ after := by decide +kernel

theorem settings_all (s : Setting) : s ∈ settings := by cases s <;> decide

theorem find_settings (c : Conf) (s : Setting) (hs : s ∈ before ++ after) (l : List Setting) (hl : ∀ t ∈ l, t ∈ before ++ after) :
    (settingVals c l).find? (fun e => e.1.map lower = (place s).map lower) =
      if s ∈ l then some (place s, toValue (c.val s)) else none := by
  induction l with
  | nil => rfl
  | cons t l ih =>
    have ih := ih (fun x hx => hl x (by simp [hx]))
    have hc : settingVals c (t :: l) = (place t, toValue (c.val t)) :: settingVals c l := rfl
    rw [hc]
    by_cases h : t = s
    · subst h
      rw [List.find?_cons_of_pos (by simp)]
      simp
    · rw [List.find?_cons_of_neg (by
        simp only [decide_eq_true_eq]
        intro he
        exact h (place_inj t (hl t (by simp)) s hs he)), ih]
      have : s ∈ t :: l ↔ s ∈ l := by simp [Ne.symm h]
      simp only [this]

theorem toScalar_toValue (v : Scalar) : toScalar (toValue v) = v := by cases v <;> rfl

theorem setting_config (c : Conf) (l : List (Str × Interface)) (s : Setting) :
    setting (settingVals c before ++ ifVals own l ++ settingVals c after) s = (written c).val s := by
  unfold setting written
  simp only
  split_ifs with h
  · have hs := (inToml_mem s (settings_all s)).1 h
    rw [List.find?_append, List.find?_append, find_settings c s hs before (by intro t ht; simp [ht]),
      find_settings c s hs after (by intro t ht; simp [ht])]
    have hi : (ifVals own l).find? (fun e => e.1.map lower = (place s).map lower) = none := by
      rw [List.find?_eq_none]
      intro v hv
      simp only [decide_eq_true_eq]
      intro he
      have h1 := (place_facts s hs).1
      have h2 := (ifVals_shape _ v hv).1
      have := congrArg List.length he
      simp at this
      omega
    rw [hi]
    rcases List.mem_append.mp hs with hb | ha
    · simp [hb, toScalar_toValue]
    · by_cases hb : s ∈ before
      · simp [hb, toScalar_toValue]
      · simp [hb, ha, toScalar_toValue]
  · rfl

theorem lower_names : lower (bs "Interfaces") = bs "interfaces" ∧ lower (bs "Path") = bs "path" ∧ lower (bs "Type") = bs "type" ∧
    lower (bs "Speed") = bs "speed" := by decide +kernel

theorem member_settings (c : Conf) (l : List Setting) (hl : ∀ t ∈ l, t ∈ before ++ after) (n f : Str) (r : List (List Str × Value)) :
    member (settingVals c l ++ r) n f = member r n f := by
  unfold member
  rw [List.find?_append]
  have : (settingVals c l).find? (fun e => isMember n f e.1) = none := by
    rw [List.find?_eq_none]
    intro v hv
    obtain ⟨s, hs, rfl⟩ := List.mem_map.mp hv
    have := (place_facts s (hl s hs)).1
    simp only [isMember]
    split
    · rename_i h; rw [h] at this; simp at this
    · simp
  rw [this]
  rfl

theorem member_own (l : List (Str × Interface)) (h : (l.map Prod.fst).Nodup) (e : Str × Interface) (he : e ∈ l) (r : List (List Str × Value)) :
    member (l.flatMap (fun e => interfaceVals (own e.1) e.2) ++ r) e.1 (bs "path") = some (.str e.2.path) ∧
    member (l.flatMap (fun e => interfaceVals (own e.1) e.2) ++ r) e.1 (bs "type") = some (.str e.2.type) ∧
    member (l.flatMap (fun e => interfaceVals (own e.1) e.2) ++ r) e.1 (bs "speed") = some (.int e.2.speed) := by
  have hd : bs "path" ≠ bs "type" ∧ bs "path" ≠ bs "speed" ∧ bs "type" ≠ bs "speed" := by decide +kernel
  obtain ⟨l1, l2, l3, l4⟩ := lower_names
  induction l with
  | nil => simp at he
  | cons a l ih =>
    rw [List.map_cons, List.nodup_cons] at h
    rw [List.flatMap_cons]
    rcases List.mem_cons.mp he with rfl | he
    · simp only [member, isMember, interfaceVals, own, List.cons_append, List.nil_append, List.find?_cons, l1, l2, l3, l4, hd.1, hd.2.1, hd.2.2,
        decide_true, decide_false, Bool.and_true, Bool.and_false, Option.map_some, and_self]
    · have hne : a.1 ≠ e.1 := by
        intro hh
        exact h.1 (List.mem_map.mpr ⟨e, he, hh.symm⟩)
      have ih := ih h.2 he
      simp only [member] at ih ⊢
      simp only [isMember, interfaceVals, own, List.cons_append, List.nil_append, List.find?_cons, hne, decide_false, Bool.and_false, Bool.false_and]
      exact ih

theorem interfaces_own (c : Conf) (l : List (Str × Interface)) (h : (l.map Prod.fst).Nodup) (hs : ∀ e ∈ l, e.2.speed < 2 ^ 63) (L : List (Str × Interface))
    (hL : ∀ e ∈ L, e ∈ l) :
    interfaces (settingVals c before ++ l.flatMap (fun e => interfaceVals (own e.1) e.2) ++ settingVals c after) (L.map Prod.fst) = some L := by
  induction L with
  | nil => rfl
  | cons e L ih =>
    have he := hL e (by simp)
    have hm := member_own l h e he (settingVals c after)
    have hi : interface (settingVals c before ++ l.flatMap (fun e => interfaceVals (own e.1) e.2) ++ settingVals c after) e.1 = some e.2 := by
      unfold interface
      rw [List.append_assoc]
      simp only [member_settings c before (fun t ht => by simp [ht]), hm, asText, asSpeed]
      have := hs e he
      have h2 : ((e.2.speed : Int) % 2 ^ 64).toNat = e.2.speed := by omega
      rw [h2]
    simp only [List.map_cons, interfaces, hi, ih (fun x hx => hL x (by simp [hx]))]

end Argo.Toml
