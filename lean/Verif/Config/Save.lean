import Verif.Config.Props

set_option autoImplicit false

/-!
# C76: saving the configuration and crashes
-/

namespace Argo.Config

open Argo

theorem conf_eq : Signalk.bs "argo.conf" = confName := rfl
theorem bak_eq : Signalk.bs "argo.conf~" = bakName := rfl

theorem conf_ne_bak : confName ≠ bakName := by decide +kernel

theorem applyAll_append (fs : FS) (a b : List FileOp) :
    applyAll fs (a ++ b) = applyAll (applyAll fs a) b := List.foldl_append

theorem applyAll_appends (fs : FS) (name : Str) (c : Str) (h : fs name = some c) (ps : List Str) :
    applyAll fs (ps.map (.append name)) = fun n => if n = name then some (c ++ ps.flatten) else fs n := by
  induction ps generalizing fs c with
  | nil =>
    funext n
    by_cases hn : n = name
    · subst hn; simpa [applyAll] using h
    · simp [applyAll, hn]
  | cons p ps ih =>
    have := ih (FileOp.apply fs (.append name p)) (c ++ p) (by simp [FileOp.apply, h])
    show applyAll (FileOp.apply fs (.append name p)) (ps.map (.append name)) = _
    rw [this]
    funext n
    by_cases hn : n = name
    · simp [hn]
    · simp [hn, FileOp.apply]

/-- Writing a file leaves exactly the bytes written in it, and all other files alone. -/
theorem applyAll_writeFile (fs : FS) (name : Str) (ps : List Str) :
    applyAll fs (writeFile name ps) = fun n => if n = name then some ps.flatten else fs n := by
  have := applyAll_appends (FileOp.apply fs (.create name)) name [] (by simp [FileOp.apply]) ps
  show applyAll (FileOp.apply fs (.create name)) (ps.map (.append name)) = _
  rw [this]
  funext n
  by_cases hn : n = name
  · simp [hn]
  · simp [hn, FileOp.apply]

theorem prefix_cases {α : Type} (a b p : List α) (h : p <+: a ++ b) :
    p <+: a ∨ ∃ q, q <+: b ∧ p = a ++ q := by
  obtain ⟨r, hr⟩ := h
  rcases List.append_eq_append_iff.1 hr with ⟨c, h1, h2⟩ | ⟨c, h1, h2⟩
  · exact Or.inl ⟨c, h1.symm⟩
  · exact Or.inr ⟨c, ⟨r, h2.symm⟩, h1⟩

theorem writeFile_prefix_other (fs : FS) (name : Str) (ps : List Str) (p : List FileOp)
    (h : p <+: writeFile name ps) (n : Str) (hn : n ≠ name) : applyAll fs p n = fs n := by
  have hp : ∀ o ∈ p, ∀ fs' : FS, FileOp.apply fs' o n = fs' n := by
    intro o ho fs'
    have := h.subset ho
    simp only [writeFile, List.mem_cons, List.mem_map] at this
    rcases this with rfl | ⟨q, _, rfl⟩ <;> simp [FileOp.apply, hn]
  clear h
  induction p generalizing fs with
  | nil => rfl
  | cons o os ih =>
    show applyAll (FileOp.apply fs o) os n = _
    rw [ih _ (fun o' ho' => hp o' (by simp [ho'])), hp o (by simp)]

/-- The file system says `old` in argo.conf or in its backup. -/
def Kept (fs : FS) (old : Str) : Prop := fs (Signalk.bs "argo.conf") = some old ∨ fs (Signalk.bs "argo.conf~") = some old

/-- **C76** (one save): argo.conf holds `old`; whatever pieces the backup and the new text are written in,
and at whatever point of the save the process dies, `old` is complete in argo.conf or in argo.conf~; if it
does not die, argo.conf holds the new text and argo.conf~ the old one; no other file is touched. -/
theorem C76_save (fs : FS) (old : Str) (h : fs (Signalk.bs "argo.conf") = some old) (bakPieces confPieces : List Str)
    (hb : bakPieces.flatten = old) :
    (∀ done, done <+: saveOps bakPieces confPieces → Kept (applyAll fs done) old) ∧
    applyAll fs (saveOps bakPieces confPieces) (Signalk.bs "argo.conf") = some confPieces.flatten ∧
    applyAll fs (saveOps bakPieces confPieces) (Signalk.bs "argo.conf~") = some old ∧
    (∀ n, n ≠ Signalk.bs "argo.conf" → n ≠ Signalk.bs "argo.conf~" → ∀ done, done <+: saveOps bakPieces confPieces →
      applyAll fs done n = fs n) := by
  have hne := conf_ne_bak
  unfold Kept
  rw [conf_eq] at h ⊢
  rw [bak_eq]
  refine ⟨fun done hd => ?_, ?_, ?_, fun n h1 h2 done hd => ?_⟩
  · rcases prefix_cases _ _ _ hd with hd | ⟨q, hq, rfl⟩
    · left
      rw [writeFile_prefix_other fs bakName bakPieces done hd _ hne, h]
    · right
      rw [applyAll_append, writeFile_prefix_other _ confName confPieces q hq _ hne.symm,
        applyAll_writeFile]
      simp [hb]
  · rw [saveOps, applyAll_append, applyAll_writeFile]
    simp
  · rw [saveOps, applyAll_append, applyAll_writeFile, applyAll_writeFile]
    simp [hne.symm, hb]
  · rcases prefix_cases _ _ _ hd with hd | ⟨q, hq, rfl⟩
    · exact writeFile_prefix_other fs bakName bakPieces done hd _ h2
    · rw [applyAll_append, writeFile_prefix_other _ confName confPieces q hq _ h1,
        applyAll_writeFile]
      simp [h2]

/-- A save: how the backup is cut into writes (a cutting of any text whose pieces make up the text), and
the pieces of the new text. -/
structure Save where
  cut : Str → List Str
  cut_flatten : ∀ s, (cut s).flatten = s
  newPieces : List Str

/-- The operations of one save on a file system, ui_server.go:107-109: what is backed up is what argo.conf
holds, and nothing if it cannot be read (the error is ignored). -/
def Save.ops (fs : FS) (s : Save) : List FileOp := saveOps (s.cut ((fs confName).getD [])) s.newPieces

/-- Saves one after the other, each complete. -/
def saves : FS → List Save → FS
  | fs, [] => fs
  | fs, s :: ss => saves (applyAll fs (s.ops fs)) ss

/-- **C76** (partial: a history of saves): argo.conf exists, any number of saves are completed one after
the other and then one dies at any point: the text of the last completed save (or, if none, the text
before) is complete in argo.conf or argo.conf~.  Missing: a save after one that died (`C76_repeat_false`),
two saves at the same time (`C76_concurrent_false`) and failing writes (`C76_disk_full_false`). -/
theorem C76_history_partial (fs : FS) (old : Str) (h : fs (Signalk.bs "argo.conf") = some old) (done : List Save)
    (last : Save) (p : List FileOp) (hp : p <+: last.ops (saves fs done)) :
    Kept (applyAll (saves fs done) p) ((done.map (·.newPieces.flatten)).getLast?.getD old) := by
  induction done generalizing fs old with
  | nil =>
    refine (C76_save fs old h _ _ ?_).1 p hp
    rw [last.cut_flatten]; rw [conf_eq] at h; simp [saves, h]
  | cons s ss ih =>
    have h2 := (C76_save fs old h (s.cut ((fs confName).getD [])) s.newPieces
      (by rw [s.cut_flatten, ← conf_eq, h]; rfl)).2.1
    have := ih (applyAll fs (s.ops fs)) _ h2 hp
    cases ss with
    | nil => exact this
    | cons t ts =>
      rw [List.map_cons, List.map_cons, List.getLast?_cons_cons]
      simp only [List.map_cons, List.getLast?_eq_some_getLast (List.cons_ne_nil _ _),
        Option.getD_some] at this ⊢
      exact this

/-- A save that writes everything in one piece. -/
def oneShot (new : Str) : Save := ⟨fun s => [s], by simp, [new]⟩

/-- A file system with only argo.conf. -/
def onlyConf (t : Str) : FS := fun n => if n = confName then some t else none

/-- **C76** (a save after a crash): a save dies just after truncating argo.conf, and the next one dies just
after truncating argo.conf~ or completes: the configuration is in neither file. -/
theorem C76_repeat_false :
    ∃ (fs : FS) (p : List FileOp), fs (Signalk.bs "argo.conf") = some [1] ∧ p <+: (oneShot [2]).ops fs ∧
      ¬ Kept (applyAll (applyAll fs p) ((oneShot [3]).ops (applyAll fs p))) [1] := by
  refine ⟨onlyConf [1], ((oneShot [2]).ops (onlyConf [1])).take 3, by decide +kernel, List.take_prefix _ _, ?_⟩
  unfold Kept
  decide +kernel

/-- **C76** (failing writes): the writes of the backup fail, for instance because the disk is full, and
their errors are ignored; argo.conf is then truncated all the same, and the configuration is in neither
file although the process did not die. -/
theorem C76_disk_full_false :
    ∃ (fs : FS) (bakPieces confPieces : List Str), fs (Signalk.bs "argo.conf") = some [1] ∧
      ¬ Kept (applyAll fs (saveOps bakPieces confPieces)) [1] :=
  ⟨onlyConf [1], [], [], by decide +kernel, by unfold Kept; decide +kernel⟩

/-! ## Concurrent saves -/

/-- A handler in the middle of a save: the operations still to do once argo.conf was read; before that, the
text it will write. -/
inductive Handler where
  | start (new : Str)
  | busy (todo : List FileOp)
  deriving DecidableEq

/-- One step of a handler, ui_server.go:107-109. -/
def Handler.step (fs : FS) : Handler → Option (FS × Handler)
  | .start new => some (fs, .busy (saveOps [(fs confName).getD []] [new]))
  | .busy (op :: todo) => some (op.apply fs, .busy todo)
  | .busy [] => none

/-- Running handlers under a schedule: `net/http` serves every request in its own goroutine, and nothing in
adminHandler excludes another. -/
def runHandlers : FS → List Handler → List Nat → FS
  | fs, _, [] => fs
  | fs, hs, i :: sched =>
    match hs[i]? with
    | none => runHandlers fs hs sched
    | some h =>
      match h.step fs with
      | none => runHandlers fs hs sched
      | some (fs', h') => runHandlers fs' (hs.set i h') sched

/-- **C76** (two saves at the same time): two POSTs are served at the same time and the process dies at an
unlucky point: the old configuration is in neither file, and neither is a new one. -/
theorem C76_concurrent_false :
    ∃ (fs₀ : FS) (sched : List Nat), fs₀ (Signalk.bs "argo.conf") = some [1] ∧
      let fs := runHandlers fs₀ [.start [2], .start [3]] sched
      fs (Signalk.bs "argo.conf") = some [] ∧ fs (Signalk.bs "argo.conf~") = some [] :=
  ⟨onlyConf [1], [0, 0, 0, 0, 1, 1], by decide +kernel, by decide +kernel⟩

/-- Two POSTs that both complete, with no crash: the new configuration is in place, but the backup may be
empty. -/
theorem C76_concurrent_backup_false :
    ∃ (fs₀ : FS) (sched : List Nat), fs₀ (Signalk.bs "argo.conf") = some [1] ∧
      let fs := runHandlers fs₀ [.start [2], .start [3]] sched
      fs (Signalk.bs "argo.conf") = some [3] ∧ fs (Signalk.bs "argo.conf~") = some [] :=
  ⟨onlyConf [1], [0, 0, 0, 0, 1, 0, 1, 1, 1, 1], by decide +kernel, by decide +kernel⟩

/-- **C76** (one handler at a time): a single handler, at whatever point it is stopped, keeps the old
configuration in one of the files. -/
theorem C76_single (fs : FS) (old new : Str) (h : fs (Signalk.bs "argo.conf") = some old) (sched : List Nat) :
    Kept (runHandlers fs [.start new] sched) old := by
  -- the handler has done a prefix of the operations
  have H : ∀ (sched : List Nat) (done todo : List FileOp), done ++ todo = saveOps [old] [new] →
      Kept (runHandlers (applyAll fs done) [.busy todo] sched) old := by
    intro sched
    induction sched with
    | nil =>
      intro done todo he
      exact (C76_save fs old h [old] [new] (by simp)).1 done ⟨todo, he⟩
    | cons i sched ih =>
      intro done todo he
      cases i with
      | succ i => simpa [runHandlers] using ih done todo he
      | zero =>
        cases todo with
        | nil => simpa [runHandlers, Handler.step] using ih done [] he
        | cons op todo =>
          have := ih (done ++ [op]) todo (by simpa using he)
          rw [applyAll_append] at this
          simpa [runHandlers, Handler.step, applyAll] using this
  induction sched with
  | nil => exact Or.inl h
  | cons i sched ih =>
    cases i with
    | succ i => simpa [runHandlers] using ih
    | zero =>
      have := H sched [] (saveOps [old] [new]) rfl
      simp only [runHandlers, List.getElem?_cons_zero, Handler.step, ← conf_eq, h, Option.getD_some, List.set_cons_zero]
      exact this

-- non-vacuity: a save in several pieces, dying in the middle of the new text
example : Kept (applyAll (onlyConf [1, 2, 3]) ((saveOps [[1], [2, 3]] [[7], [8]]).take 5)) [1, 2, 3] ∧
    applyAll (onlyConf [1, 2, 3]) ((saveOps [[1], [2, 3]] [[7], [8]]).take 5) confName = some [7] := by
  unfold Kept; decide +kernel
example : saves (onlyConf [1]) [oneShot [2], oneShot [3]] confName = some [3] ∧
    saves (onlyConf [1]) [oneShot [2], oneShot [3]] bakName = some [2] := by decide +kernel

end Argo.Config
