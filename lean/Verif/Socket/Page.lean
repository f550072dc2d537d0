import Verif.Json.Front
import Verif.Socket.System

set_option autoImplicit false

/-! # C127: the front page, from the bytes of its connection -/

namespace Argo.Socket

open Argo Argo.Json
open Argo.Main (Counters)

/-- site.js:46-62: the table after these texts, received one after the other; `walk n` is the order in which the members of the n-th are
visited. -/
def shown (walk : Nat → Rows → Rows) (l : List (List Byte)) : Rows :=
  (l.zipIdx.foldl (fun rows e => onMessage (walk e.2) rows e.1) [] : Rows)

theorem shown_table (newer : Bool) (walk : Nat → Rows → Rows) (logs : List Counters) :
    shown walk (logs.map fun log => print newer (countersOut log)) = table newer walk 0 [] logs := by
  unfold shown
  generalize ([] : Rows) = rows
  generalize 0 = n
  induction logs generalizing n rows with
  | nil => rfl
  | cons log logs ih => rw [List.map_cons, List.zipIdx_cons, List.foldl_cons, ih]; rfl

/-- **C127** (the front page): whatever bytes of the statistics connection have arrived, in any schedule, the browser does not fail the
connection, and the table it shows has one row for each PGN of the messages taken up to a moment, with its count: that moment is as many
messages after the registration as texts have been read. -/
theorem C127_page {δ β : Type} [DecidableEq β] {P : Main.Program δ β} (hs : Main.Sorts P.sort) (newer : Bool)
    {es : List (Main.SysEvent δ β)} {s : Main.Sys δ β} (ho : Main.Ordinary es)
    (h : Main.sysExec P Main.Sys.init es = some (.ok s)) {c : Hub.Id}
    (hc : Hub.Spec.registered c (Main.stTrace es)) {walk : Nat → Rows → Rows} (hw : ∀ n l, (walk n l).Perm l)
    {ts : List Turn} (hts : taken ts = (s.st.got c).map fun log => print newer (countersOut log))
    (hl : ∀ m ∈ taken ts, m.length < 2 ^ 63) {b : List Byte} (hb : b <+: writePump ts) :
    (client b).2 ≠ .failed ∧ (texts (client b).1 = [] → shown walk (texts (client b).1) = []) ∧
    (texts (client b).1 ≠ [] →
      Shows (s.history.take (Main.before c (Main.stTrace es) + (texts (client b).1).length)) (shown walk (texts (client b).1))) := by
  have hsend : Sendable ts := sendable_of fun m hm => by
    refine ⟨?_, hl m hm⟩
    rw [hts] at hm
    obtain ⟨log, _, rfl⟩ := List.mem_map.mp hm
    obtain ⟨j, _, hj⟩ := C105_counters newer log
    exact reads_text ((hj j).mpr rfl)
  have h1 := (C127_texts hsend hb).1
  rw [hts] at h1
  have he : texts (client b).1 = ((s.st.got c).take (texts (client b).1).length).map fun log => print newer (countersOut log) := by
    rw [List.map_take]
    exact List.prefix_iff_eq_take.mp h1
  have hlen : ((s.st.got c).take (texts (client b).1).length).length = (texts (client b).1).length := by
    have := congrArg List.length he
    rw [List.length_map] at this
    exact this.symm
  have ht := table_prefix hs newer ho h hc hw _ (List.take_prefix (texts (client b).1).length (s.st.got c))
  rw [← shown_table, ← he, hlen] at ht
  refine ⟨(C127_stream hsend hb).1, fun e => by rw [e]; rfl, fun hne => ?_⟩
  rwa [if_neg] at ht
  intro hn
  rw [hn] at he
  exact hne he

/-- In the run of `C97_client` the pump takes the one message after a ping; from its bytes, and not from all but the last, the page shows
two messages of PGN 127245. -/
example : (match Main.sysExec Main.sampleProgram Main.Sys.init Main.countRun with
    | some (.ok s) =>
      let ts : List Turn := [⟨.tick, none⟩, ⟨.message (Signalk.bs "{\"127245\":2}"), none⟩]
      decide (taken ts = (s.st.got 5).map fun log => print false (countersOut log)) &&
      (shown (fun _ l => l) (texts (client (writePump ts)).1)).map (fun e => (e.1, match e.2 with | .num t => some t | _ => none)) ==
        [("127245".toList, some [50])] &&
      texts (client ((writePump ts).take 15)).1 == []
    | _ => false) = true := by decide +kernel

end Argo.Socket
