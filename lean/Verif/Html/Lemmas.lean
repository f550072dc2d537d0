import Verif.Html.Pages

set_option autoImplicit false

/-!
# Reading a page with holes

The tokenizer on a template: what it makes of the page with the values in it is what it makes of the template, with the
values put in afterwards.
-/

namespace Argo.Html

open Argo.Signalk (Str bs)
open Argo.Config (Setting Scalar Conf)
open Argo.Packages (NpmObject)

section
variable {F : Type}

/-- The tokenizer on a template.  A value may stand in a text or in a quoted attribute; the escaper has to be the one for
addresses at the start of an `href`, the one for attributes in another attribute, the one for text in a text. -/
def stepT : Mode (Sym F) → Sym F → Option (Mode (Sym F) × List (Tok (Sym F)))
  | m, .byte b => step Sym.byte m b
  | .data, .hole e f => if e = .text then some (.data, [.chr (.hole e f)]) else none
  | .quoted q t as n v, .hole e f =>
    if q == 34 && (if n == bs "href" then decide (e = .url) && v.isEmpty else decide (e = .attr)) then
      some (.quoted q t as n (v ++ [.hole e f]), [])
    else none
  | _, _ => none

def runT : Mode (Sym F) → List (Sym F) → Option (Mode (Sym F) × List (Tok (Sym F)))
  | m, [] => some (m, [])
  | m, b :: r =>
    match stepT m b with
    | none => none
    | some (m', ts) =>
      match runT m' r with
      | none => none
      | some (m'', us) => some (m'', ts ++ us)

/-- Putting the values in. -/
def Sym.put (σ : Esc → F → Str) : Sym F → Str
  | .byte b => [b]
  | .hole e f => σ e f

def putV (σ : Esc → F → Str) (v : List (Sym F)) : Str := v.flatMap (Sym.put σ)

def putA (σ : Esc → F → Str) (as : List (Str × List (Sym F))) : List (Str × Str) := as.map (fun a => (a.1, putV σ a.2))

def Tok.put (σ : Esc → F → Str) : Tok (Sym F) → List (Tok UInt8)
  | .start n as s => [.start n (putA σ as) s]
  | .stop n => [.stop n]
  | .chr c => (c.put σ).map .chr
  | .doctype s => [.doctype s]

def putT (σ : Esc → F → Str) (ts : List (Tok (Sym F))) : List (Tok UInt8) := ts.flatMap (Tok.put σ)

def Mode.put (σ : Esc → F → Str) : Mode (Sym F) → Mode UInt8
  | .data => .data
  | .ref r => .ref r
  | .tagOpen => .tagOpen
  | .endOpen => .endOpen
  | .tagName t => .tagName t
  | .endName t => .endName t
  | .beforeName t as => .beforeName t (putA σ as)
  | .attrName t as n => .attrName t (putA σ as) n
  | .afterName t as n => .afterName t (putA σ as) n
  | .beforeValue t as n => .beforeValue t (putA σ as) n
  | .quoted q t as n v => .quoted q t (putA σ as) n (putV σ v)
  | .quotedRef q t as n v r => .quotedRef q t (putA σ as) n (putV σ v) r
  | .afterQuoted t as => .afterQuoted t (putA σ as)
  | .selfClosing t as => .selfClosing t (putA σ as)
  | .markup s => .markup s
  | .doctype s => .doctype s
  | .raw t => .raw t
  | .rawLt t => .rawLt t
  | .rawEnd t n => .rawEnd t n

end

/-- The bytes `x` are read as `y`, in a text and in an attribute in double quotes. -/
def Reads (x y : Str) : Prop :=
  run id .data x = some (.data, y.map .chr) ∧
  ∀ t as n v, run id (.quoted 34 t as n v) x = some (.quoted 34 t as n (v ++ y), [])

theorem run_append {α : Type} (inj : UInt8 → α) (m : Mode α) (x y : Str) :
    run inj m (x ++ y) = (run inj m x).bind fun r => (run inj r.1 y).map fun q => (q.1, r.2 ++ q.2) := by
  induction x generalizing m with
  | nil => cases h : run inj m y <;> simp [run, h]
  | cons b x ih =>
    simp only [List.cons_append, run]
    cases h : step inj m b with
    | none => simp
    | some r =>
      obtain ⟨m', ts⟩ := r
      simp only [ih m']
      cases h2 : run inj m' x with
      | none => simp
      | some q =>
        obtain ⟨m2, us⟩ := q
        simp only [Option.bind_some]
        cases run inj m2 y <;> simp [List.append_assoc]

section
variable {F : Type}

theorem runT_append (m : Mode (Sym F)) (x y : List (Sym F)) :
    runT m (x ++ y) = (runT m x).bind fun r => (runT r.1 y).map fun q => (q.1, r.2 ++ q.2) := by
  induction x generalizing m with
  | nil => cases h : runT m y <;> simp [runT, h]
  | cons b x ih =>
    simp only [List.cons_append, runT]
    cases h : stepT m b with
    | none => simp
    | some r =>
      obtain ⟨m', ts⟩ := r
      simp only [ih m']
      cases h2 : runT m' x with
      | none => simp
      | some q =>
        obtain ⟨m2, us⟩ := q
        simp only [Option.bind_some]
        cases runT m2 y <;> simp [List.append_assoc]

theorem runT_join {m m' m'' : Mode (Sym F)} {x y : List (Sym F)} {ts us : List (Tok (Sym F))}
    (hx : runT m x = some (m', ts)) (hy : runT m' y = some (m'', us)) : runT m (x ++ y) = some (m'', ts ++ us) := by
  rw [runT_append, hx]
  simp [hy]

theorem putA_keys (σ : Esc → F → Str) (as : List (Str × List (Sym F))) : (putA σ as).map Prod.fst = as.map Prod.fst := by
  simp [putA]

theorem putA_nil (σ : Esc → F → Str) : putA σ [] = [] := rfl

theorem putV_nil (σ : Esc → F → Str) : putV σ [] = [] := rfl

theorem putA_add (σ : Esc → F → Str) (as : List (Str × List (Sym F))) (n : Str) (v : List (Sym F)) :
    putA σ (addAttr as n v) = addAttr (putA σ as) n (putV σ v) := by
  unfold addAttr
  rw [putA_keys]
  split
  · rfl
  · simp [putA]

theorem finish_put (σ : Esc → F → Str) {t : Str} {as : List (Str × List (Sym F))} {s : Bool} {m : Mode (Sym F)}
    {ts : List (Tok (Sym F))} (h : finish t as s = some (m, ts)) :
    finish t (putA σ as) s = some (m.put σ, putT σ ts) := by
  unfold finish at h ⊢
  split at h
  · cases h
  · split at h
    · split at h
      · cases h
      · cases h
        simp [Mode.put, putT, Tok.put, *]
    · cases h
      simp [Mode.put, putT, Tok.put, *]

theorem putV_bytes (σ : Esc → F → Str) (l : Str) : putV σ (l.map Sym.byte) = l := by
  induction l with
  | nil => rfl
  | cons b l ih => simp only [List.map_cons, putV, List.flatMap_cons, Sym.put] at ih ⊢; rw [ih]; rfl

theorem putT_bytes (σ : Esc → F → Str) (l : Str) : putT σ (l.map (fun x => Tok.chr (Sym.byte x))) = l.map .chr := by
  induction l with
  | nil => rfl
  | cons b l ih => simp only [List.map_cons, putT, List.flatMap_cons, Tok.put, Sym.put] at ih ⊢; rw [ih]; rfl

theorem step_put (σ : Esc → F → Str) {m m' : Mode (Sym F)} {b : UInt8} {ts : List (Tok (Sym F))}
    (h : step Sym.byte m b = some (m', ts)) : step id (m.put σ) b = some (m'.put σ, putT σ ts) := by
  cases m <;> simp only [step, Mode.put] at h ⊢
  case ref r =>
    split at h
    · rw [if_pos ‹_›]
      cases hf : refs.find? (fun e => e.1 == r) with
      | none => rw [hf] at h; cases h
      | some e =>
        rw [hf] at h
        simp only [Option.map_some, Option.some.injEq, Prod.mk.injEq] at h ⊢
        rw [← h.1, ← h.2]
        exact ⟨rfl, (putT_bytes σ e.2).symm⟩
    · rw [if_neg ‹_›]; cases h; rfl
  case quotedRef q t as n v r =>
    split at h
    · rw [if_pos ‹_›]
      cases hf : refs.find? (fun e => e.1 == r) with
      | none => rw [hf] at h; cases h
      | some e =>
        rw [hf] at h
        simp only [Option.map_some, Option.some.injEq, Prod.mk.injEq] at h ⊢
        rw [← h.1, ← h.2]
        refine ⟨?_, rfl⟩
        have := putV_bytes σ e.2
        simp only [Mode.put, putV, List.flatMap_append, List.map_id] at this ⊢
        rw [this]
    · rw [if_neg ‹_›]; cases h; rfl
  all_goals
    repeat' split at h
    all_goals
      first
      | (cases h; done)
      | (have := finish_put σ h; (try simp only [putA_add, putA_nil, putV_nil] at this);
          (repeat' split) <;> first | exact this | (exfalso; simp_all; done))
      | (cases h; simp_all [Mode.put, putT, Tok.put, Sym.put, putV, putA_add, putA_nil]; done)

/-- The page with the values in it. -/
theorem run_put (print : F → Str) (σ : Esc → F → Str) (hσ : ∀ e f, Reads (e.apply (print f)) (σ e f))
    {m m' : Mode (Sym F)} {l : List (Sym F)} {ts : List (Tok (Sym F))} (h : runT m l = some (m', ts)) :
    run id (m.put σ) (render print l) = some (m'.put σ, putT σ ts) := by
  induction l generalizing m ts with
  | nil => cases h; rfl
  | cons x l ih =>
    simp only [runT] at h
    cases hs : stepT m x with
    | none => rw [hs] at h; cases h
    | some r =>
      obtain ⟨m1, ts1⟩ := r
      rw [hs] at h
      simp only at h
      cases hr : runT m1 l with
      | none => rw [hr] at h; cases h
      | some q =>
        obtain ⟨m2, us⟩ := q
        rw [hr] at h
        cases h
        have ih := ih hr
        have er : render print (x :: l) = x.out print ++ render print l := rfl
        have key : run id (m.put σ) (x.out print) = some (m1.put σ, putT σ ts1) := by
          cases x with
          | byte b =>
            have := step_put σ (show step Sym.byte m b = some (m1, ts1) from by cases m <;> exact hs)
            simp only [Sym.out, run, this, List.append_nil]
          | hole e f =>
            cases m <;> simp only [stepT] at hs <;> try cases hs
            · split at hs
              · cases hs
                simpa [Sym.out, Mode.put, putT, Tok.put, Sym.put] using (hσ e f).1
              · cases hs
            · rename_i q t as n v
              by_cases hc : (q == 34 && (if n == bs "href" then decide (e = .url) && v.isEmpty else decide (e = .attr))) = true
              · rw [if_pos hc] at hs
                simp only [Bool.and_eq_true, beq_iff_eq] at hc
                rw [hc.1] at hs ⊢
                cases hs
                simpa [Sym.out, Mode.put, putT, putV, Sym.put] using (hσ e f).2 _ _ _ _
              · rw [if_neg hc] at hs; cases hs
        rw [er, run_append, key]
        simp only [Option.bind_some, ih, Option.map_some, putT, List.flatMap_append]

end

/-! ## Escaped values -/

/-- What is left of a text: a NUL cannot be written in HTML, U+FFFD stands for it. -/
def readable (s : Str) : Str := s.flatMap fun b => if b == 0 then [0xEF, 0xBF, 0xBD] else [b]

theorem step_plain {α : Type} (inj : UInt8 → α) {b : UInt8} (h0 : b ≠ 0) (h1 : b ≠ 60) (h2 : b ≠ 38) (h3 : b ≠ 34) :
    step inj .data b = some (.data, [.chr (inj b)]) ∧
    ∀ t as n v, step inj (.quoted 34 t as n v) b = some (.quoted 34 t as n (v ++ [inj b]), []) := by
  simp [step, h0, h1, h2, h3]

theorem reads_ref {b : UInt8} (name x : Str) (e : replacement b = 38 :: (name ++ [59]))
    (hx : (refs.find? (fun e => e.1 == name)).map Prod.snd = some x) (hn : (59 : UInt8) ∉ name) :
      Reads (replacement b) x := by
    rw [e]
    have hr : ∀ (pre s : Str), (59 : UInt8) ∉ s → run (α := UInt8) id (.ref pre) s = some (.ref (pre ++ s), []) ∧
        ∀ t as n v, run (α := UInt8) id (.quotedRef 34 t as n v pre) s = some (.quotedRef 34 t as n v (pre ++ s), []) := by
      intro pre s
      induction s generalizing pre with
      | nil => intro _; simp [run]
      | cons a s ih =>
        intro hs
        simp only [List.mem_cons, not_or] at hs
        have ha : ¬ a = 59 := fun e => hs.1 e.symm
        obtain ⟨i1, i2⟩ := ih (pre ++ [a]) hs.2
        refine ⟨by simp [run, step, ha, i1], fun t as n v => by simp [run, step, ha, i2]⟩
    obtain ⟨e, he, hex⟩ := Option.map_eq_some_iff.mp hx
    constructor
    · have : run (α := UInt8) id .data (38 :: (name ++ [59])) = run id .data ([38] ++ (name ++ [59])) := rfl
      rw [this, run_append, show run (α := UInt8) id .data [38] = some (.ref [], []) from rfl]
      simp only [Option.bind_some]
      rw [run_append, (hr [] name hn).1]
      simp [run, step, he, hex]
    · intro t as n v
      have : run (α := UInt8) id (.quoted 34 t as n v) (38 :: (name ++ [59])) = run id (.quoted 34 t as n v) ([38] ++ (name ++ [59])) := rfl
      rw [this, run_append, show run (α := UInt8) id (.quoted 34 t as n v) [38] = some (.quotedRef 34 t as n v [], []) from rfl]
      simp only [Option.bind_some]
      rw [run_append, (hr [] name hn).2 t as n v]
      simp [run, step, he, hex]

theorem reads_byte (b : UInt8) : Reads (replacement b) (if b == 0 then [0xEF, 0xBF, 0xBD] else [b]) := by
  by_cases h0 : b = 0
  · subst h0
    exact ⟨by decide, fun t as n v => by simp [run, step, replacement]⟩
  by_cases h34 : b = 34
  · subst h34; exact reads_ref (bs "#34") [34] (by decide +kernel) (by decide +kernel) (by decide +kernel)
  by_cases h38 : b = 38
  · subst h38; exact reads_ref (bs "amp") [38] (by decide +kernel) (by decide +kernel) (by decide +kernel)
  by_cases h39 : b = 39
  · subst h39; exact reads_ref (bs "#39") [39] (by decide +kernel) (by decide +kernel) (by decide +kernel)
  by_cases h43 : b = 43
  · subst h43; exact reads_ref (bs "#43") [43] (by decide +kernel) (by decide +kernel) (by decide +kernel)
  by_cases h60 : b = 60
  · subst h60; exact reads_ref (bs "lt") [60] (by decide +kernel) (by decide +kernel) (by decide +kernel)
  by_cases h62 : b = 62
  · subst h62; exact reads_ref (bs "gt") [62] (by decide +kernel) (by decide +kernel) (by decide +kernel)
  have e : replacement b = [b] := by simp [replacement, h0, h34, h38, h39, h43, h60, h62]
  rw [e, if_neg (by simpa using h0)]
  obtain ⟨p1, p2⟩ := step_plain (α := UInt8) id h0 h60 h38 h34
  exact ⟨by simp [run, p1], fun t as n v => by simp [run, p2]⟩

theorem reads_append {x y x' y' : Str} (h : Reads x y) (h' : Reads x' y') : Reads (x ++ x') (y ++ y') := by
  constructor
  · rw [run_append, h.1]; simp [h'.1]
  · intro t as n v
    rw [run_append, h.2]; simp [h'.2]

theorem reads_html (s : Str) : Reads (htmlReplacer s) (readable s) := by
  induction s with
  | nil => exact ⟨rfl, fun t as n v => by simp [htmlReplacer, readable, run]⟩
  | cons b s ih => exact reads_append (reads_byte b) ih

end Argo.Html
