import Verif.Html.Parts
import Verif.Json.Text

set_option autoImplicit false

/-!
# The page of the settings (C119)
-/

namespace Argo.Html

open Argo.Signalk (Str bs)
open Argo.Config (Setting Scalar Conf)

/-! ## The whole page -/

theorem readable_plain {s : Str} (h : (0 : UInt8) ∉ s) : readable s = s := by
  induction s with
  | nil => rfl
  | cons b s ih =>
    simp only [List.mem_cons, not_or] at h
    have hb : ¬ b = 0 := fun e => h.1 e.symm
    have := ih h.2
    simp only [readable, List.flatMap_cons] at this ⊢
    rw [this]
    simp [hb]

theorem dec_no_nul (n : Int) : (0 : UInt8) ∉ bs (toString n) := by
  have key : ∀ m : Nat, (0 : UInt8) ∉ bs (toString m) := by
    intro m hm
    rw [Json.bs_eq, List.mem_flatMap] at hm
    obtain ⟨ch, hc, hz⟩ := hm
    have hd := Json.digit_ascii (Json.dec_digits m ch hc)
    have : ∀ k : Fin 128, k.val ≠ 0 → (0 : UInt8) ∉ String.utf8EncodeChar (Char.ofNat k.val) := by decide +kernel
    have h2 := this ⟨ch.toNat, by omega⟩ (by simp only; omega)
    rw [Char.ofNat_toNat] at h2
    exact h2 hz
  cases n with
  | ofNat m => exact key m
  | negSucc m =>
    have : bs (toString (Int.negSucc m)) = bs "-" ++ bs (toString (m + 1)) := by
      rw [← Json.bs_append]; rfl
    rw [this, List.mem_append]
    rintro (h | h)
    · exact absurd h (by decide +kernel)
    · exact key _ h

/-- What a browser reads where a value stands. -/
def value {F : Type} (print : F → Str) (e : Esc) (f : F) : Str :=
  match e with
  | .url => readable (normalize (urlFilter (print f)))
  | _ => readable (print f)

theorem reads_value {F : Type} (print : F → Str) (e : Esc) (f : F) : Reads (e.apply (print f)) (value print e f) := by
  cases e <;> exact reads_html _

theorem part_of {m m' : Mode (Sym Setting)} {l : List (Sym Setting)} {ins : List (Tok (Sym Setting))}
    {ids : List (List (Sym Setting))} (h : (runT m l).map summary = some ⟨m', ins, ids, true⟩) :
    ∃ ts, runT m l = some (m', ts) ∧ ts.filter isInput = ins ∧ ts.filterMap idOf = ids ∧ ts.all confined = true := by
  obtain ⟨⟨a, ts⟩, h1, h2⟩ := Option.map_eq_some_iff.mp h
  simp only [summary, Part.mk.injEq] at h2
  obtain ⟨rfl, h3, h4, h5⟩ := h2
  exact ⟨ts, h1, h3, h4, h5⟩

theorem split_head {s : List (Sym Setting)} (h : s.head? = some (.byte 62)) : s = [.byte 62] ++ s.drop 1 := by
  cases s with
  | nil => cases h
  | cons a s => simp only [List.head?_cons, Option.some.injEq] at h; subst h; rfl

theorem flatMap_leaf (truth : Setting → Bool) (ls : List (Leaf Setting)) :
    (ls.map Node.leaf).flatMap (Node.syms truth) = leaves ls := by
  induction ls with
  | nil => rfl
  | cons a ls ih => simp only [List.map_cons, List.flatMap_cons, ih, leaves, Node.syms]

theorem index_syms (truth : Setting → Bool) :
    symsOf truth (.leaf (.text layoutHead) :: (indexContent ++ [.leaf (.text layoutFoot)])) =
    leaves (.text layoutHead :: indexContent0) ++ (mark (truth .enableWebsockets) ++ (leaves indexContent1 ++
      (mark (truth .serverUseTls) ++ (leaves indexContent2 ++ (mark (truth .mqttEnable) ++ (leaves indexContent3 ++
      (mark (truth .mqttUseTls) ++ leaves (indexContent4 ++ [.text layoutFoot]))))))))  := by
  have hc : ∀ f, (if truth f = true then [Leaf.text (lines [" checked "])] else []).flatMap Leaf.syms = mark (truth f) := by
    intro f
    unfold mark leaves
    cases truth f <;> simp
  unfold symsOf indexContent
  simp only [List.flatMap_cons, List.flatMap_append, flatMap_leaf, List.flatMap_nil, List.append_nil, leaves, Node.syms, hc,
    List.append_assoc]

theorem put_byt (σ : Esc → Setting → Str) (s : String) : putV σ (byt s) = bs s := putV_bytes σ _

theorem put_hole (σ : Esc → Setting → Str) (s : Setting) : putV σ (hole s) = σ .attr s := by
  simp [putV, hole, Sym.put]

theorem put_inp {σ : Esc → Setting → Str} (as : List (String × List (Sym Setting))) (self : Bool) :
    Tok.put σ (inp as self) = [inp (as.map (fun a => (a.1, putV σ a.2))) self] := by
  simp [inp, Tok.put, putA, Function.comp_def]

theorem put_box (σ : Esc → Setting → Str) (id : String) (on : Bool) : Tok.put σ (box byt id on) = [box bs id on] := by
  cases on <;> simp [box, put_inp, put_byt, putV_nil]

theorem put_inputs (σ : Esc → Setting → Str) :
    putT σ (inputs0 byt hole) = inputs0 bs (σ .attr) ∧ putT σ (inputs2 byt) = inputs2 bs ∧
    putT σ (inputs3 byt hole) = inputs3 bs (σ .attr) ∧ putT σ (inputs4 byt) = inputs4 bs := by
  refine ⟨?_, ?_, ?_, ?_⟩ <;>
  simp [putT, inputs0, inputs2, inputs3, inputs4, textInput, uuidInput, typedInput, put_inp, put_byt, put_hole]

theorem filter_put (σ : Esc → Setting → Str) (ts : List (Tok (Sym Setting))) :
    (putT σ ts).filter isInput = putT σ (ts.filter isInput) := by
  induction ts with
  | nil => rfl
  | cons t ts ih =>
    have e : ∀ (x : Tok (Sym Setting)) l, putT σ (x :: l) = x.put σ ++ putT σ l := fun _ _ => rfl
    have e2 : (t.put σ).filter isInput = if isInput t then t.put σ else [] := by
      cases t with
      | start n as s => simp [Tok.put, isInput, List.filter_cons]
      | stop n => rfl
      | doctype n => rfl
      | chr x => simp [Tok.put, isInput, List.filter_eq_nil_iff]
    rw [e, List.filter_append, ih, e2, List.filter_cons]
    split
    · rw [e]
    · rfl

theorem attr_put (σ : Esc → Setting → Str) (as : List (Str × List (Sym Setting))) (n : String) :
    attr (putA σ as) n = (attr as n).map (putV σ) := by
  simp [attr, putA, List.find?_map, Function.comp_def]

theorem ids_put (σ : Esc → Setting → Str) (ts : List (Tok (Sym Setting))) :
    (putT σ ts).filterMap idOf = (ts.filterMap idOf).map (putV σ) := by
  induction ts with
  | nil => rfl
  | cons t ts ih =>
    have e : ∀ (x : Tok (Sym Setting)) l, putT σ (x :: l) = x.put σ ++ putT σ l := fun _ _ => rfl
    have e2 : (t.put σ).filterMap idOf = ((idOf t).map (putV σ)).toList := by
      cases t with
      | start n as s => simp only [Tok.put, idOf, List.filterMap_cons, attr_put]; cases attr as "id" <;> rfl
      | stop n => rfl
      | doctype n => rfl
      | chr x => simp [Tok.put, idOf]
    rw [e, List.filterMap_append, ih, e2, List.filterMap_cons]
    cases idOf t <;> simp

theorem putV_const {σ τ : Esc → Setting → Str} {v : List (Sym Setting)}
    (h : v.all (fun s => match s with | .byte _ => true | _ => false) = true) : putV σ v = putV τ v := by
  induction v with
  | nil => rfl
  | cons a v ih =>
    simp only [List.all_cons, Bool.and_eq_true] at h
    have := ih h.2
    simp only [putV, List.flatMap_cons] at this ⊢
    rw [this]
    cases a with
    | byte b => rfl
    | hole e f => cases h.1

theorem erase_put {σ τ : Esc → Setting → Str} {ts : List (Tok (Sym Setting))} (h : ts.all confined = true) :
    (putT σ ts).map erase = (putT τ ts).map erase := by
  induction ts with
  | nil => rfl
  | cons t ts ih =>
    simp only [List.all_cons, Bool.and_eq_true] at h
    have e : ∀ (ρ : Esc → Setting → Str) (x : Tok (Sym Setting)) l, putT ρ (x :: l) = x.put ρ ++ putT ρ l := fun _ _ _ => rfl
    rw [e, e, List.map_append, List.map_append, ih h.2]
    congr 1
    have h1 := h.1
    cases t with
    | stop n => rfl
    | doctype n => rfl
    | chr x =>
      cases x with
      | byte b => rfl
      | hole e f => simp [confined] at h1
    | start n as s =>
      simp only [confined, List.all_eq_true, Bool.or_eq_true, Bool.and_eq_true, beq_iff_eq] at h1
      simp only [Tok.put, List.map_cons, List.map_nil, erase]
      by_cases hn : n = bs "input"
      · subst hn
        simp only [beq_self_eq_true, if_true]
        congr 2
        simp only [putA, List.filter_map, List.map_map]
        apply List.map_congr_left
        intro a ha
        have ha := (List.mem_filter.mp ha).1
        simp only [Function.comp_apply]
        by_cases hv : a.1 = bs "value"
        · simp [hv]
        · have := h1 a ha
          simp only [hv, and_false, false_or] at this
          rw [putV_const (σ := σ) (τ := τ) (List.all_eq_true.mpr this)]
      · have hn' : (n == bs "input") = false := by simpa using hn
        simp only [hn', Bool.false_eq_true, if_false]
        congr 2
        unfold putA
        apply List.map_congr_left
        intro a ha
        have := h1 a ha
        simp only [hn, false_and, false_or] at this
        rw [putV_const (σ := σ) (τ := τ) (List.all_eq_true.mpr this)]

theorem putT_append (σ : Esc → Setting → Str) (a b : List (Tok (Sym Setting))) : putT σ (a ++ b) = putT σ a ++ putT σ b :=
  List.flatMap_append

/-- **C119** (settings): whatever the settings are, a browser reads the same page up to the values of its inputs and their
check marks: the same tags with the same attributes and the same text, all ids different.  And its inputs are exactly those of
`inputs`: every one shows its setting. -/
theorem C119_index : ∃ (shape : List (Tok UInt8)) (ids : List Str), ids.Nodup ∧
    ∀ c : Conf, Config.WellTyped c → ∃ ts, tokens (indexPage c) = some ts ∧
      ts.map erase = shape ∧ ts.filterMap idOf = ids ∧ ts.filter isInput = inputs c := by
  obtain ⟨t0, r0, f0, i0, c0⟩ := part_of part0
  obtain ⟨t1, r1, f1, i1, c1⟩ := part_of part1
  obtain ⟨t2, r2, f2, i2, c2⟩ := part_of part2
  obtain ⟨t3, r3, f3, i3, c3⟩ := part_of part3
  obtain ⟨t4, r4, f4, i4, c4⟩ := part_of part4
  have h1 := split_head (heads _ (by simp : leaves indexContent1 ∈ _))
  have h2 := split_head (heads _ (by simp : leaves indexContent2 ∈ _))
  have h3 := split_head (heads _ (by simp : leaves indexContent3 ∈ _))
  have h4 := split_head (heads _ (by simp : leaves (indexContent4 ++ [.text layoutFoot]) ∈ _))
  have full : ∀ truth : Setting → Bool,
      runT .data (symsOf truth (.leaf (.text layoutHead) :: (indexContent ++ [.leaf (.text layoutFoot)]))) =
      some (.data, t0 ++ ([box byt "enableWebsockets" (truth .enableWebsockets)] ++ (t1 ++
        ([box byt "useTls" (truth .serverUseTls)] ++ (t2 ++ ([box byt "mqttEnable" (truth .mqttEnable)] ++ (t3 ++
        ([box byt "mqttUseTls" (truth .mqttUseTls)] ++ t4)))))))) := by
    intro truth
    rw [index_syms, h1, h2, h3, h4]
    simp only [← List.append_assoc (mark _)]
    simp only [List.append_assoc]
    simp only [← List.append_assoc (mark _) [Sym.byte 62]]
    refine runT_join r0 (runT_join (box_run _ (by simp) _) (runT_join r1 (runT_join (box_run _ (by simp) _)
      (runT_join r2 (runT_join (box_run _ (by simp) _) (runT_join r3 (runT_join (box_run _ (by simp) _) r4)))))))
  let σ0 : Esc → Setting → Str := fun _ _ => []
  let toks : (Esc → Setting → Str) → (Setting → Bool) → List (Tok UInt8) := fun σ truth =>
    putT σ t0 ++ ([box bs "enableWebsockets" (truth .enableWebsockets)] ++ (putT σ t1 ++
        ([box bs "useTls" (truth .serverUseTls)] ++ (putT σ t2 ++ ([box bs "mqttEnable" (truth .mqttEnable)] ++ (putT σ t3 ++
        ([box bs "mqttUseTls" (truth .mqttUseTls)] ++ putT σ t4)))))))
  refine ⟨(toks σ0 (fun _ => false)).map erase, (toks σ0 (fun _ => false)).filterMap idOf, ?_, ?_⟩
  · simp only [toks, List.filterMap_append, ids_put, i0, i1, i2, i3, i4]
    simp only [List.map_map, List.map_cons, List.map_nil, Function.comp_def, put_byt]
    decide +kernel
  · intro c hc
    let σ := value (fun s => sprint (c.val s))
    let truth := fun s => isTrue (c.val s)
    have hb : ∀ id on, idOf (box bs id on) = some (bs id) ∧ isInput (box bs id on) = true := by
      intro id on
      have n1 : (bs "class" == bs "id") = false := by decide +kernel
      cases on <;> simp [box, inp, idOf, isInput, attr, n1, -beq_eq_false_iff_ne]
    have hbe : ∀ id on, erase (box bs id on) = erase (box bs id false) := by
      intro id on
      have n1 : (bs "checked" != bs "checked") = false := by decide +kernel
      have n2 : (bs "class" != bs "checked") = true := by decide +kernel
      have n3 : (bs "id" != bs "checked") = true := by decide +kernel
      have n4 : (bs "type" != bs "checked") = true := by decide +kernel
      cases on <;> simp [box, inp, erase, List.filter_cons, n1, n2, n3, n4, -bne_iff_ne]
    refine ⟨toks σ truth, ?_, ?_, ?_, ?_⟩
    · have := run_put (fun s => sprint (c.val s)) σ (reads_value _) (full truth)
      unfold tokens indexPage
      rw [show (Mode.data : Mode UInt8) = Mode.put σ .data from rfl, this]
      simp only [Mode.put, putT_append, toks]
      simp only [putT, List.flatMap_cons, List.flatMap_nil, List.append_nil, put_box]
    · simp only [toks, List.map_append, List.map_cons, List.map_nil, erase_put (σ := σ) (τ := σ0) c0,
        erase_put (σ := σ) (τ := σ0) c1, erase_put (σ := σ) (τ := σ0) c2, erase_put (σ := σ) (τ := σ0) c3,
        erase_put (σ := σ) (τ := σ0) c4, hbe _ (truth _)]
    · simp only [toks, List.filterMap_append, ids_put, i0, i1, i2, i3, i4, List.filterMap_cons, List.filterMap_nil, (hb _ _).1]
      simp only [List.map_map, List.map_cons, List.map_nil, Function.comp_def, put_byt]
    · obtain ⟨p0, p2, p3, p4⟩ := put_inputs σ
      have hv : ∀ s, (∀ b, Config.zeroOf s ≠ .bool b) → σ .attr s = shown (c.val s) := by
        intro s hs
        have := hc s
        show readable (sprint (c.val s)) = shown (c.val s)
        cases hv : c.val s with
        | str x => rfl
        | int n => exact readable_plain (dec_no_nul n)
        | bool b =>
          rw [hv] at this
          cases hz : Config.zeroOf s with
          | bool b' => exact absurd hz (hs b')
          | _ => rw [hz] at this; cases this
      have ht : ∀ s b, Config.zeroOf s = .bool b → truth s = decide (c.val s = .bool true) := by
        intro s b hs
        have := hc s
        rw [hs] at this
        cases hv : c.val s with
        | bool b => cases b <;> simp [truth, hv, isTrue]
        | _ => rw [hv] at this; cases this
      simp only [toks, List.filter_append, filter_put, f0, f1, f2, f3, f4, p0, p2, p3, p4, List.filter_cons, (hb _ _).2, if_true,
        List.filter_nil]
      rw [ht .enableWebsockets false rfl, ht .serverUseTls false rfl, ht .mqttEnable false rfl, ht .mqttUseTls false rfl]
      have e0 : inputs0 bs (σ .attr) = inputs0 bs (fun s => shown (c.val s)) := by
        unfold inputs0
        rw [hv .vesselName (fun _ h => by cases h), hv .manufacturer (fun _ h => by cases h), hv .model (fun _ h => by cases h), hv .year (fun _ h => by cases h), hv .mmsi (fun _ h => by cases h), hv .callsign (fun _ h => by cases h), hv .registration (fun _ h => by cases h), hv .uuid0 (fun _ h => by cases h), hv .uuid1 (fun _ h => by cases h), hv .uuid2 (fun _ h => by cases h), hv .uuid3 (fun _ h => by cases h), hv .uuid4 (fun _ h => by cases h), hv .listenOn (fun _ h => by cases h), hv .serverPort (fun _ h => by cases h)]
      have e3 : inputs3 bs (σ .attr) = inputs3 bs (fun s => shown (c.val s)) := by
        unfold inputs3
        rw [hv .mqttHost (fun _ h => by cases h), hv .mqttPort (fun _ h => by cases h), hv .clientId (fun _ h => by cases h), hv .username (fun _ h => by cases h), hv .password (fun _ h => by cases h)]
      rw [e0, e3]
      simp [inputs, putT]

end Argo.Html
