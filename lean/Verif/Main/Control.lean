import Verif.Go

set_option autoImplicit false

/-!
# C72: control requests (main/api_server.go:147-161, main/argo.go:112)

Goroutines are sequences of operations; an operation on an unbuffered channel is a rendezvous of a sender
and a receiver, anything else happens on its own.  The environment may start goroutines at any time.
-/

namespace Argo.Main.Control

/-- Channels; `cmdch` of argo.go:112 is one of them. -/
abbrev Ch := Nat

/-- One operation of a goroutine, as far as channels are concerned. -/
inductive Op where
  | send (c : Ch)
  | recv (c : Ch)
  /-- a select with several channel operations -/
  | select (sends recvs : List Ch)
  /-- anything that does not wait for a channel -/
  | work
  deriving DecidableEq, Repr

def Op.sends : Op → List Ch
  | .send c => [c]
  | .select s _ => s
  | _ => []

def Op.recvs : Op → List Ch
  | .recv c => [c]
  | .select _ r => r
  | _ => []

/-- A goroutine: the operations left, oldest first. -/
abbrev Thread := List Op

inductive Ev where
  /-- a goroutine is started -/
  | spawn (t : Thread)
  /-- goroutine `i` does work -/
  | work (i : Nat)
  /-- goroutine `i` sends to goroutine `j` on `c` -/
  | meet (i j : Nat) (c : Ch)
  deriving DecidableEq, Repr

/-- One step of a set of goroutines; a finished goroutine is `[]`. -/
def step (ts : List Thread) : Ev → Option (List Thread)
  | .spawn t => some (ts ++ [t])
  | .work i => match ts[i]? with
    | some (.work :: t) => some (ts.set i t)
    | _ => none
  | .meet i j c => match ts[i]?, ts[j]? with
    | some (a :: t), some (b :: u) =>
      if i ≠ j ∧ c ∈ a.sends ∧ c ∈ b.recvs then some ((ts.set i t).set j u) else none
    | _, _ => none

def exec (ts : List Thread) : List Ev → Option (List Thread)
  | [] => some ts
  | e :: es => match step ts e with
    | some ts' => exec ts' es
    | none => none

/-- api_server.go:147-161 `SendMessageHandler`: a POST is decoded (a decoding error writes a text and goes
on), sent on the command channel, and then answered; any other method is answered at once. -/
def handler (cmdch : Ch) (post : Bool) : Thread :=
  if post then [.work, .send cmdch, .work] else [.work]

/-- No goroutine receives from `c`: true of `cmdch`, which argo.go:112 creates and argo.go:153-154 passes
to `ApiServer` and `UiServer`; the former only sends (api_server.go:158), the latter ignores it
(ui_server.go:207-226). -/
def NoReceiver (c : Ch) (t : Thread) : Prop := ∀ op ∈ t, c ∉ op.recvs

/-- In the schedule only goroutines that do not receive from `c` are started. -/
def Deaf (c : Ch) (es : List Ev) : Prop := ∀ t, Ev.spawn t ∈ es → NoReceiver c t

theorem step_deaf {c : Ch} {ts ts' : List Thread} {e : Ev} (h : ∀ t ∈ ts, NoReceiver c t) (he : Deaf c [e])
    (hs : step ts e = some ts') : ∀ t ∈ ts', NoReceiver c t := by
  have tail : ∀ {op : Op} {t : Thread}, NoReceiver c (op :: t) → NoReceiver c t :=
    fun h o ho => h o (List.mem_cons_of_mem _ ho)
  cases e with
  | spawn t =>
    simp only [step, Option.some.injEq] at hs
    subst hs
    intro x hx
    rcases List.mem_append.mp hx with hx | hx
    · exact h x hx
    · rw [List.mem_singleton.mp hx]; exact he t (by simp)
  | work i =>
    simp only [step] at hs
    split at hs
    · rename_i t ht
      simp only [Option.some.injEq] at hs
      subst hs
      intro x hx
      rcases List.mem_or_eq_of_mem_set hx with hx | rfl
      · exact h x hx
      · exact tail (h _ (List.mem_of_getElem? ht))
    · cases hs
  | meet i j d =>
    simp only [step] at hs
    split at hs
    · rename_i a t b u hi hj
      split at hs
      · simp only [Option.some.injEq] at hs
        subst hs
        intro x hx
        rcases List.mem_or_eq_of_mem_set hx with hx | rfl
        · rcases List.mem_or_eq_of_mem_set hx with hx | rfl
          · exact h x hx
          · exact tail (h _ (List.mem_of_getElem? hi))
        · exact tail (h _ (List.mem_of_getElem? hj))
      · cases hs
    · cases hs

theorem step_stuck {c : Ch} {ts ts' : List Thread} {e : Ev} (h : ∀ t ∈ ts, NoReceiver c t) {k : Nat} {rest : Thread}
    (hk : ts[k]? = some (.send c :: rest)) (hs : step ts e = some ts') : ts'[k]? = some (.send c :: rest) := by
  have hlt : k < ts.length := (List.getElem?_eq_some_iff.mp hk).1
  cases e with
  | spawn t =>
    simp only [step, Option.some.injEq] at hs
    subst hs
    rw [List.getElem?_append_left hlt, hk]
  | work i =>
    simp only [step] at hs
    split at hs
    · rename_i t ht
      simp only [Option.some.injEq] at hs
      subst hs
      have hne : i ≠ k := by rintro rfl; rw [hk] at ht; cases ht
      rw [List.getElem?_set_ne hne, hk]
    · cases hs
  | meet i j d =>
    simp only [step] at hs
    split at hs
    · rename_i a t b u hi hj
      split at hs
      · rename_i hcond
        simp only [Option.some.injEq] at hs
        subst hs
        have hjk : j ≠ k := by
          rintro rfl
          rw [hk] at hj
          injection hj with hj
          injection hj with hb hu
          rw [← hb] at hcond
          simp [Op.recvs] at hcond
        have hik : i ≠ k := by
          rintro rfl
          rw [hk] at hi
          injection hi with hi
          injection hi with ha ht
          rw [← ha] at hcond
          have hd : d = c := by simpa [Op.sends] using hcond.2.1
          subst hd
          exact h _ (List.mem_of_getElem? hj) b (by simp) hcond.2.2
        rw [List.getElem?_set_ne hjk, List.getElem?_set_ne hik, hk]
      · cases hs
    · cases hs

theorem exec_deaf {c : Ch} {ts ts' : List Thread} {es : List Ev} (h : ∀ t ∈ ts, NoReceiver c t) (he : Deaf c es)
    (hs : exec ts es = some ts') : ∀ t ∈ ts', NoReceiver c t := by
  induction es generalizing ts with
  | nil => simp only [exec, Option.some.injEq] at hs; subst hs; exact h
  | cons e es ih =>
    simp only [exec] at hs
    split at hs
    · rename_i ts1 h1
      exact ih (step_deaf h (fun t ht => he t (by simp at ht; simp [ht])) h1)
        (fun t ht => he t (List.mem_cons_of_mem _ ht)) hs
    · cases hs

theorem exec_stuck {c : Ch} {ts ts' : List Thread} {es : List Ev} (h : ∀ t ∈ ts, NoReceiver c t) (he : Deaf c es)
    {k : Nat} {rest : Thread} (hk : ts[k]? = some (.send c :: rest)) (hs : exec ts es = some ts') :
    ts'[k]? = some (.send c :: rest) := by
  induction es generalizing ts with
  | nil => simp only [exec, Option.some.injEq] at hs; subst hs; exact hk
  | cons e es ih =>
    simp only [exec] at hs
    split at hs
    · rename_i ts1 h1
      exact ih (step_deaf h (fun t ht => he t (by simp at ht; simp [ht])) h1)
        (fun t ht => he t (List.mem_cons_of_mem _ ht)) (step_stuck h hk h1) hs
    · cases hs

theorem handler_progress {c : Ch} {ts ts' : List Thread} {es : List Ev} (h : ∀ t ∈ ts, NoReceiver c t)
    (he : Deaf c es) {k : Nat} (hk : ts[k]? = some (handler c true)) (hs : exec ts es = some ts') :
    ts'[k]? = some (handler c true) ∨ ts'[k]? = some [.send c, .work] := by
  induction es generalizing ts with
  | nil => simp only [exec, Option.some.injEq] at hs; subst hs; exact Or.inl hk
  | cons e es ih =>
    simp only [exec] at hs
    split at hs
    · rename_i ts1 h1
      have hd1 : Deaf c [e] := fun t ht => he t (by simp at ht; simp [ht])
      have hd2 : Deaf c es := fun t ht => he t (List.mem_cons_of_mem _ ht)
      have h' := step_deaf h hd1 h1
      have hlt : k < ts.length := (List.getElem?_eq_some_iff.mp hk).1
      have : ts1[k]? = some (handler c true) ∨ ts1[k]? = some [.send c, .work] := by
        cases e with
        | spawn t =>
          simp only [step, Option.some.injEq] at h1
          subst h1
          exact Or.inl (by rw [List.getElem?_append_left hlt, hk])
        | work i =>
          simp only [step] at h1
          split at h1
          · rename_i t ht
            simp only [Option.some.injEq] at h1
            subst h1
            by_cases hik : i = k
            · subst hik
              rw [hk] at ht
              simp only [handler, if_true, Option.some.injEq, List.cons.injEq, true_and] at ht
              right
              rw [List.getElem?_set_self hlt, ← ht]
            · left; rw [List.getElem?_set_ne hik, hk]
          · cases h1
        | meet i j d =>
          simp only [step] at h1
          split at h1
          · rename_i a t b u hi hj
            split at h1
            · rename_i hcond
              simp only [Option.some.injEq] at h1
              subst h1
              have hjk : j ≠ k := by
                rintro rfl
                rw [hk] at hj
                simp only [handler, if_true, Option.some.injEq, List.cons.injEq] at hj
                rw [← hj.1] at hcond
                simp [Op.recvs] at hcond
              have hik : i ≠ k := by
                rintro rfl
                rw [hk] at hi
                simp only [handler, if_true, Option.some.injEq, List.cons.injEq] at hi
                rw [← hi.1] at hcond
                simp [Op.sends] at hcond
              left
              rw [List.getElem?_set_ne hjk, List.getElem?_set_ne hik, hk]
            · cases h1
          · cases h1
      rcases this with h2 | h2
      · exact ih h' hd2 h2 hs
      · exact Or.inr (exec_stuck h' hd2 h2 hs)
    · cases hs

/-- C72 is false: as long as no goroutine receives from the command channel, which is the case in argo,
no POST is ever answered, in any schedule and whatever else runs. -/
theorem C72_false {c : Ch} {ts ts' : List Thread} {es : List Ev} (h : ∀ t ∈ ts, NoReceiver c t) (he : Deaf c es)
    {k : Nat} (hk : ts[k]? = some (handler c true)) (hs : exec ts es = some ts') : ts'[k]? ≠ some [] := by
  rcases handler_progress h he hk hs with h | h <;> rw [h] <;> simp [handler]

/-- A request with another method is answered by its own step. -/
theorem C72_get_partial {c : Ch} {ts : List Thread} {k : Nat} (hk : ts[k]? = some (handler c false)) :
    ∃ ts', step ts (.work k) = some ts' ∧ ts'[k]? = some [] := by
  have hlt : k < ts.length := (List.getElem?_eq_some_iff.mp hk).1
  refine ⟨ts.set k [], ?_, by rw [List.getElem?_set_self hlt]⟩
  simp only [step, hk, handler, Bool.false_eq_true, if_false]

/-- With a receiver on the channel the same handler would be answered. -/
example : exec [handler 0 true, [.recv 0]] [.work 0, .meet 0 1 0, .work 0] = some [[], []] := by decide

/-- A schedule with other goroutines (the interfaces and the consumer, on channel 1), and a POST. -/
example : exec [handler 0 true] [.spawn [.work, .send 1], .spawn [.recv 1, .work], .work 0, .work 1, .meet 1 2 1, .work 2]
    = some [[.send 0, .work], [], []] ∧
    Deaf 0 [.spawn [.work, .send 1], .spawn [.recv 1, .work], .work 0, .work 1, .meet 1 2 1, .work 2] ∧
    NoReceiver 0 (handler 0 true) := by
  refine ⟨by decide, ?_, ?_⟩
  · intro t ht
    simp only [List.mem_cons, Ev.spawn.injEq, reduceCtorEq, List.not_mem_nil, or_false] at ht
    rcases ht with rfl | rfl <;> intro op hop <;> simp at hop <;> rcases hop with rfl | rfl <;> decide
  · intro op hop; simp [handler] at hop; rcases hop with rfl | rfl | rfl <;> decide

end Argo.Main.Control
