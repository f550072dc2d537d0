import Verif.Main.CatchUpStats
import Verif.Json.Pages
import Verif.Routes.Paths

set_option autoImplicit false

/-!
# The front page (C115)

The table of statistics the script of the front page keeps, and the window it opens for a row: what the browser shows
follows from what the server sent.
-/

namespace Argo.Json

open Argo
open Argo.Nmea2k (Pgn Field)
open Argo.Nmea2k
open Argo.Main (Counters decimal)
open Argo.Signalk (Str bs)

/-! ## Model -/

/-- templates/index.gtpl:5-10: the rows of the table `#stats`: the PGN (the `data-pgn` of its link) and the count.
Numbers are kept as the text they were sent as. -/
abbrev Rows := List (List Char × Json)

/-- site.js:50-59: the first row with this PGN takes the count, and a row is appended if there is none. -/
def setRow : Rows → List Char → Json → Rows
  | [], k, v => [(k, v)]
  | (a, b) :: rows, k, v => if a = k then (a, v) :: rows else (a, b) :: setRow rows k v

/-- site.js:46-62 `ws.onmessage`: `JSON.parse` throws on what is not JSON and the table stays as it is; `walk` is the
order in which `$.each` visits the members. -/
def onMessage (walk : Rows → Rows) (rows : Rows) (data : List Byte) : Rows :=
  match read data with
  | some (.obj l) => (walk l).foldl (fun rows e => setRow rows e.1 e.2) rows
  | _ => rows

/-- The table after these statistics messages (argo.go:183-184 sends the counters as JSON); `walk n` is the order of
the members of the n-th. -/
def table (newer : Bool) (walk : Nat → Rows → Rows) : Nat → Rows → List Counters → Rows
  | _, rows, [] => rows
  | n, rows, log :: logs => table newer walk (n + 1) (onMessage (walk n) rows (print newer (countersOut log))) logs

/-- What the window `#pgnModal` shows. -/
structure Window where
  title : Option Json
  pgn : Option Json
  category : Option Json
  fields : List (Option Json)

/-- `o.name` of a value `JSON.parse` gave: the last member with that name, nothing if there is none. -/
def prop (name : String) : Json → Option Json
  | .obj l => (l.reverse.find? (fun e => e.1 = name.toList)).map Prod.snd
  | _ => none

/-- site.js:66-75: the callback of `$.getJSON`; it throws if there is no list of fields. -/
def window (data : Json) : Option Window :=
  match prop "FieldList" data with
  | some (.arr l) => some {
      title := prop "Description" data
      pgn := prop "Pgn" data
      category := prop "Category" data
      fields := l.map (prop "Name") }
  | _ => none

/-- site.js:65-76 `showPgnData` with the server behind it: the address, the handler that answers, the reply. -/
def showPgnData (newer : Bool) (scale : String → List Byte) (ord : MapOrder) (regs : List (Str × Routes.Target))
    (apps added : List Str) (tbl : List Pgn) (k : List Char) : Option Window :=
  match Routes.serve Path.routerClean true regs apps added (bs "/signalk/v1/api/messages/" ++ bs (String.ofList k)) with
  | some (.apiDetails key) =>
    match detailsReply newer scale ord tbl key with
    | .ok (some b) => (read b).bind window
    | _ => none
  | _ => none

/-! ## Specification -/

/-- The table says how often each PGN of the history occurred: a row for every PGN, no other, each once. -/
def Shows (history : List Nat) (rows : Rows) : Prop :=
  (rows.map Prod.fst).Nodup ∧
  ∀ k v, (k, v) ∈ rows ↔ ∃ p ∈ history, k = (toString p).toList ∧ v = jnat (history.count p % 2 ^ 64)

/-- The window describes this definition. -/
def Describes (w : Window) (d : Pgn) : Prop :=
  w.title = some (jstr d.description) ∧ w.pgn = some (jnat d.pgn) ∧ w.category = some (jstr d.category) ∧
  w.fields = d.fieldList.map (fun f => some (jstr f.name))

/-! ## The table -/

theorem setRow_keys (rows : Rows) (k : List Char) (v : Json) :
    (setRow rows k v).map Prod.fst = if k ∈ rows.map Prod.fst then rows.map Prod.fst else rows.map Prod.fst ++ [k] := by
  induction rows with
  | nil => simp [setRow]
  | cons e rows ih =>
    obtain ⟨a, b⟩ := e
    unfold setRow
    by_cases h : a = k
    · simp [h]
    · rw [if_neg h, List.map_cons, ih]
      have h' : k ≠ a := fun e => h e.symm
      by_cases hk : k ∈ rows.map Prod.fst
      · simp [hk]
      · simp [hk, h']

theorem setRow_nodup {rows : Rows} (h : (rows.map Prod.fst).Nodup) (k : List Char) (v : Json) :
    ((setRow rows k v).map Prod.fst).Nodup := by
  rw [setRow_keys]
  split
  · exact h
  · rename_i hk
    rw [List.nodup_append]
    exact ⟨h, by simp, by intro a ha b hb; rw [List.mem_singleton.mp hb]; exact fun e => hk (e ▸ ha)⟩

theorem setRow_mem {rows : Rows} (h : (rows.map Prod.fst).Nodup) (k : List Char) (v : Json) (x : List Char × Json) :
    x ∈ setRow rows k v ↔ x = (k, v) ∨ (x ∈ rows ∧ x.1 ≠ k) := by
  induction rows with
  | nil => simp [setRow]
  | cons e rows ih =>
    obtain ⟨a, b⟩ := e
    simp only [List.map_cons, List.nodup_cons] at h
    have ih := ih h.2
    unfold setRow
    by_cases hk : a = k
    · subst hk
      rw [if_pos rfl]
      have : ∀ y ∈ rows, y.1 ≠ a := fun y hy e => h.1 (List.mem_map.mpr ⟨y, hy, e⟩)
      simp only [List.mem_cons]
      constructor
      · rintro (rfl | hx)
        · exact Or.inl rfl
        · exact Or.inr ⟨Or.inr hx, this x hx⟩
      · rintro (rfl | ⟨rfl | hx, hne⟩)
        · exact Or.inl rfl
        · exact absurd rfl hne
        · exact Or.inr hx
    · rw [if_neg hk]
      simp only [List.mem_cons, ih]
      constructor
      · rintro (rfl | rfl | hx)
        · exact Or.inr ⟨Or.inl rfl, hk⟩
        · exact Or.inl rfl
        · exact Or.inr ⟨Or.inr hx.1, hx.2⟩
      · rintro (rfl | ⟨rfl | hx, hne⟩)
        · exact Or.inr (Or.inl rfl)
        · exact Or.inl rfl
        · exact Or.inr (Or.inr ⟨hx, hne⟩)

theorem setRows_mem (l : Rows) (hl : (l.map Prod.fst).Nodup) : ∀ {rows : Rows}, (rows.map Prod.fst).Nodup →
    (((l.foldl (fun rows e => setRow rows e.1 e.2) rows).map Prod.fst).Nodup ∧
    ∀ x, x ∈ l.foldl (fun rows e => setRow rows e.1 e.2) rows ↔ x ∈ l ∨ (x ∈ rows ∧ x.1 ∉ l.map Prod.fst)) := by
  induction l with
  | nil => intro rows h; exact ⟨h, by simp⟩
  | cons e l ih =>
    intro rows h
    obtain ⟨k, v⟩ := e
    simp only [List.map_cons, List.nodup_cons] at hl
    obtain ⟨h1, h2⟩ := ih hl.2 (setRow_nodup h k v)
    refine ⟨h1, fun x => ?_⟩
    rw [List.foldl_cons, h2, setRow_mem h]
    simp only [List.mem_cons, List.map_cons, not_or]
    constructor
    · rintro (hx | ⟨rfl | ⟨hx, hk⟩, hn⟩)
      · exact Or.inl (Or.inr hx)
      · exact Or.inl (Or.inl rfl)
      · exact Or.inr ⟨hx, hk, hn⟩
    · rintro ((rfl | hx) | ⟨hx, hk, hn⟩)
      · exact Or.inr ⟨Or.inl rfl, hl.1⟩
      · exact Or.inl hx
      · exact Or.inr ⟨Or.inr ⟨hx, hk⟩, hn⟩

theorem setRows_keys (l : Rows) : ∀ rows : Rows,
    rows.map Prod.fst <+: (l.foldl (fun rows e => setRow rows e.1 e.2) rows).map Prod.fst := by
  induction l with
  | nil => intro rows; exact List.prefix_refl _
  | cons e l ih =>
    intro rows
    refine List.IsPrefix.trans ?_ (ih _)
    rw [setRow_keys]
    split
    · exact List.prefix_refl _
    · exact List.prefix_append _ _

theorem onMessage_keys (walk : Rows → Rows) (rows : Rows) (data : List Byte) :
    rows.map Prod.fst <+: (onMessage walk rows data).map Prod.fst := by
  unfold onMessage
  split
  · exact setRows_keys _ _
  · exact List.prefix_refl _

/-- One message that counts a longer history brings the table up to it. -/
theorem onMessage_shows {walk : Rows → Rows} (hw : ∀ l, (walk l).Perm l) {rows : Rows} {data : List Byte} {j : Json}
    {old new : List Nat} (hr : Shows old rows) (hsub : ∀ p ∈ old, p ∈ new) (hj : CountsJson new j)
    (hd : ∀ j', Reads data j' ↔ j' = j) : Shows new (onMessage walk rows data) := by
  obtain ⟨l, rfl, hn, hm⟩ := hj.object
  have hread : read data = some (.obj l) := (reads_iff _ _).mp ((hd _).mpr rfl)
  unfold onMessage
  rw [hread]
  simp only
  have hp := hw l
  obtain ⟨h1, h2⟩ := setRows_mem (walk l) (((hp.map Prod.fst).nodup_iff).mpr hn) hr.1
  refine ⟨h1, fun k v => ?_⟩
  rw [h2, hp.mem_iff, hm]
  constructor
  · rintro (h | ⟨hx, hk⟩)
    · exact h
    · exfalso
      obtain ⟨p, hp', rfl, _⟩ := (hr.2 k v).mp hx
      exact hk (((hp.map Prod.fst).mem_iff).mpr (List.mem_map.mpr ⟨(_, _), (hm _ _).mpr ⟨p, hsub p hp', rfl, rfl⟩, rfl⟩))
  · intro h; exact Or.inl h

theorem table_append (newer : Bool) (walk : Nat → Rows → Rows) (a b : List Counters) : ∀ (n : Nat) (rows : Rows),
    table newer walk n rows (a ++ b) = table newer walk (n + a.length) (table newer walk n rows a) b := by
  induction a with
  | nil => intro n rows; rfl
  | cons x a ih =>
    intro n rows
    simp only [List.cons_append, table, ih, List.length_cons]
    rw [show n + 1 + a.length = n + (a.length + 1) by omega]

/-- The table after some of the statistics messages a browser is to receive. -/
theorem table_prefix {δ β : Type} [DecidableEq β] {P : Main.Program δ β} (hs : Main.Sorts P.sort) (newer : Bool)
    {es : List (Main.SysEvent δ β)} {s : Main.Sys δ β} (ho : Main.Ordinary es)
    (h : Main.sysExec P Main.Sys.init es = some (.ok s)) {c : Hub.Id}
    (hc : Hub.Spec.registered c (Main.stTrace es)) {walk : Nat → Rows → Rows} (hw : ∀ n l, (walk n l).Perm l)
    (l : List Counters) : l <+: s.st.got c →
      Shows (if l = [] then [] else s.history.take (Main.before c (Main.stTrace es) + l.length)) (table newer walk 0 [] l) := by
  induction l using List.reverseRecOn with
  | nil => intro _; exact ⟨by simp [table], by simp [table]⟩
  | append_singleton l x ih =>
    intro hpre
    have ih := ih ((List.prefix_append _ _).trans hpre)
    have hx : (s.st.got c)[l.length]? = some x := by
      obtain ⟨t, ht⟩ := hpre
      rw [← ht]; simp
    obtain ⟨j, h1, h2⟩ := C105_client hs newer ho h hc hx
    rw [table_append, if_neg (by simp)]
    simp only [table, List.length_append, List.length_singleton]
    rw [← Nat.add_assoc]
    refine onMessage_shows (hw _) ih ?_ h1 h2
    intro p hp
    split at hp
    · cases hp
    · exact (List.take_subset_take_left _ (by omega)) hp

/-- **C115** (the table): in any schedule, after the statistics messages a browser has received, the table of the
front page has one row for each PGN taken up to the moment of the last of them, each with its count, and no other
row, in whatever order the browser walks the members of the messages. -/
theorem C115_table {δ β : Type} [DecidableEq β] {P : Main.Program δ β} (hs : Main.Sorts P.sort) (newer : Bool)
    {es : List (Main.SysEvent δ β)} {s : Main.Sys δ β} (ho : Main.Ordinary es)
    (h : Main.sysExec P Main.Sys.init es = some (.ok s)) {c : Hub.Id}
    (hc : Hub.Spec.registered c (Main.stTrace es)) {walk : Nat → Rows → Rows} (hw : ∀ n l, (walk n l).Perm l) :
    (s.st.got c = [] → table newer walk 0 [] (s.st.got c) = []) ∧
    (s.st.got c ≠ [] → Shows (s.history.take (Main.before c (Main.stTrace es) + (s.st.got c).length))
      (table newer walk 0 [] (s.st.got c))) := by
  refine ⟨fun e => by rw [e]; rfl, fun hne => ?_⟩
  have := table_prefix hs newer ho h hc hw _ (List.prefix_refl _)
  rwa [if_neg hne] at this

/-- **C115** (the table is complete): the browser of a client that has kept up shows the counts of all messages the
program has taken. -/
theorem C115_caught_up {δ β : Type} [DecidableEq β] {P : Main.Program δ β} (hs : Main.Sorts P.sort) (newer : Bool)
    {es : List (Main.SysEvent δ β)} {s : Main.Sys δ β} (ho : Main.Ordinary es)
    (h : Main.sysExec P Main.Sys.init es = some (.ok s)) {c : Hub.Id}
    (hc : Hub.Spec.registered c (Main.stTrace es)) {walk : Nat → Rows → Rows} (hw : ∀ n l, (walk n l).Perm l)
    (hws : P.out.websockets = true) (hin : c ∈ s.st.conns) (hbuf : (s.st.chan c).buf = []) (hpc : s.st.pc = .idle)
    (ht : s.todo = []) (hmore : Main.before c (Main.stTrace es) < s.history.length) :
    Shows s.history (table newer walk 0 [] (s.st.got c)) := by
  obtain ⟨h1, _⟩ := Main.C97_caught_up hs ho h hc hws hin hbuf hpc ht
  have hne : s.st.got c ≠ [] := by intro e; rw [e] at h1; simp at h1; omega
  have := (C115_table hs newer ho h hc hw).2 hne
  rwa [List.take_of_length_le (by omega)] at this

/-- **C115** (the table catches up): in every reachable state of the shipped program with a browser connected and a
message being handed over, the program's own steps and the browser reading lead to a table with the counts of all
messages taken, that one included. -/
theorem C115_catch_up {β : Type} [DecidableEq β] {sort : List String → List String} {opts : Main.Opts}
    {out : Main.Outputs} {verbose : Bool} {denv : Signalk.Env Nmea2k.Val}
    {marshal : Nat → List (Signalk.Update Nmea2k.Val) → Option β} (hs : Main.Sorts sort) (newer : Bool)
    {es : List (Main.SysEvent Main.Body β)} (ho : Main.Ordinary es) (hg : Main.GenuineInput es)
    {s : Main.Sys Main.Body β}
    (h : Main.sysExec (Main.shippedProgram sort opts out verbose denv marshal) Main.Sys.init es = some (.ok s))
    (hws : out.websockets = true) {c : Hub.Id} (hc : c ∈ s.st.conns) {i : Nat} {m : Main.Message Main.Body}
    (hp : s.pending i = some m) {walk : Nat → Rows → Rows} (hw : ∀ n l, (walk n l).Perm l) :
    ∃ es' s', (∀ e ∈ es', Main.WithStats c e) ∧
      Main.sysExec (Main.shippedProgram sort opts out verbose denv marshal) s es' = some (.ok s') ∧
      s'.consumed = s.consumed ++ [(i, m)] ∧ c ∈ s'.st.conns ∧
      Shows (s.history ++ [m.header.pgn]) (table newer walk 0 [] (s'.st.got c)) := by
  obtain ⟨es', s', k1, k2, k3, k4, k5, log, k6, _⟩ := Main.C94_statistics hs ho hg h hws hc hp
  have hreg : Hub.Spec.registered c (Main.stTrace es) :=
    (Hub.inv_exec ho.stFresh (Main.sysInv_exec h).st).reg c hc
  have hall : Main.sysExec (Main.shippedProgram sort opts out verbose denv marshal) Main.Sys.init (es ++ es') =
      some (.ok s') := by rw [Main.sysExec_append h, k2]
  have hne : s'.st.got c ≠ [] := by intro e; rw [e] at k6; cases k6
  have hreg' : Hub.Spec.registered c (Main.stTrace (es ++ es')) := by
    rw [Main.stTrace_append]; exact List.mem_append_left _ hreg
  have ht := (C115_table hs newer (ho.withStats k1) hall hreg' hw).2 hne
  have hb := Main.before_le_history ho h hc
  have hh : s'.history = s.history ++ [m.header.pgn] := by simp [Main.Sys.history, k3]
  rw [Main.stTrace_append, Main.before_append hreg, k5, hh, List.take_of_length_le (by simp; omega)] at ht
  exact ⟨es', s', k1, k2, k3, k4, ht⟩

/-- **C115** (rows stay): whatever arrives, a row once shown keeps its place and its PGN; new rows come below. -/
theorem C115_rows_stay (newer : Bool) (walk : Nat → Rows → Rows) (a b : List Counters) :
    (table newer walk 0 [] a).map Prod.fst <+: (table newer walk 0 [] (a ++ b)).map Prod.fst := by
  rw [table_append]
  generalize 0 + a.length = n
  generalize table newer walk 0 [] a = rows
  induction b generalizing n rows with
  | nil => exact List.prefix_refl _
  | cons x b ih => exact (onMessage_keys _ _ _).trans (ih _ _)

/-! ## The window -/

theorem bs_toString (p : Nat) : bs (String.ofList (toString p).toList) = decimal p := by
  rw [String.ofList_toList, toString_nat_bytes]

theorem window_describes {scale : String → List Byte} {d : Pgn} {j : Json} (h : PgnJson scale d j) :
    ∃ w, window j = some w ∧ Describes w d := by
  obtain ⟨fs, hf, rfl⟩ := h
  have hn : fs.map (prop "Name") = d.fieldList.map (fun f => some (jstr f.name)) := by
    generalize d.fieldList = l at hf
    induction hf with
    | nil => rfl
    | cons h _ ih =>
      rw [List.map_cons, List.map_cons, ih]
      obtain ⟨r, u, _, _, rfl⟩ := h
      congr 1
  exact ⟨⟨some (jstr d.description), some (jnat d.pgn), some (jstr d.category), fs.map (prop "Name")⟩, rfl, rfl, rfl, rfl, hn⟩

theorem showPgnData_reply (newer : Bool) {scale : String → List Byte} (hs : ∀ s, IsNumber (scale s)) {ord : MapOrder}
    (ho : ∀ k s l, (ord k s l).Perm l) {regs : List (Str × Routes.Target)} (hr : Routes.AllRegistered regs)
    (apps added : List Str) (p : Nat) {d : Pgn} (hd : Main.messageDetails Table.pgnList (decimal p) = .ok (d, false)) :
    ∃ w, showPgnData newer scale ord regs apps added Table.pgnList (toString p).toList = some w ∧ Describes w d := by
  obtain ⟨b, j, h1, h2, h3⟩ := C105_details newer hs ho hd
  obtain ⟨w, h4, h5⟩ := window_describes h2
  refine ⟨w, ?_, h5⟩
  have hroute := (Routes.C112_addresses hr apps added).2.2.2.2.2.2.2.2.1 (decimal p) ?_
  · unfold showPgnData
    rw [bs_toString, hroute]
    simp only [h1]
    rw [(reads_iff _ _).mp ((h3 _).mpr rfl)]
    exact h4
  · refine ⟨Main.decimal_ne_nil p, ?_, ?_, ?_⟩
    · intro e; have := Main.decimal_chars p 46 (by rw [e]; decide); revert this; decide
    · intro e; have := Main.decimal_chars p 46 (by rw [e]; decide); revert this; decide
    · intro e; have := Main.decimal_chars p 47 e; revert this; decide

/-- **C115** (the window, PGNs with a definition): whatever apps are installed and in whatever order the handlers were
registered, a click on a row of the table shows the title, the PGN, the category and the names of the fields of the
first definition with that PGN.  The full property speaks of every row; for PGNs without a definition it is false
(`C115_window_false`). -/
theorem C115_window_partial {δ β : Type} [DecidableEq β] {P : Main.Program δ β} (hs : Main.Sorts P.sort) (newer : Bool)
    {es : List (Main.SysEvent δ β)} {s : Main.Sys δ β} (ho : Main.Ordinary es)
    (h : Main.sysExec P Main.Sys.init es = some (.ok s)) {c : Hub.Id}
    (hc : Hub.Spec.registered c (Main.stTrace es)) {walk : Nat → Rows → Rows} (hw : ∀ n l, (walk n l).Perm l)
    {scale : String → List Byte} (hscale : ∀ s, IsNumber (scale s)) {ord : MapOrder}
    (hord : ∀ k s l, (ord k s l).Perm l) {regs : List (Str × Routes.Target)} (hr : Routes.AllRegistered regs)
    (apps added : List Str) {k : List Char} {v : Json} (hrow : (k, v) ∈ table newer walk 0 [] (s.st.got c)) :
    ∃ p ∈ s.history, k = (toString p).toList ∧ ((∃ q ∈ Table.pgnList, q.pgn = p) →
      ∃ (w : Window) (i : Nat) (d : Pgn),
        showPgnData newer scale ord regs apps added Table.pgnList k = some w ∧ Describes w d ∧
        Table.pgnList[i]? = some d ∧ d.pgn = p ∧
        ∀ (i' : Nat) (r : Pgn), i' < i → Table.pgnList[i']? = some r → r.pgn ≠ p) := by
  obtain ⟨h1, h2⟩ := C115_table hs newer ho h hc hw
  have hne : s.st.got c ≠ [] := by intro e; rw [h1 e] at hrow; cases hrow
  obtain ⟨p, hp, rfl, _⟩ := ((h2 hne).2 k v).mp hrow
  refine ⟨p, List.mem_of_mem_take hp, rfl, ?_⟩
  rintro ⟨q, hq, rfl⟩
  obtain ⟨i, d, g1, g2, g3, g4⟩ := Main.C71_shipped hq (.plain (n := q.pgn))
  obtain ⟨w, w1, w2⟩ := showPgnData_reply newer hscale hord hr apps added q.pgn g1
  exact ⟨w, i, d, w1, w2, g2, g3, g4⟩

/-- **C115** (the window, other PGNs): a click on the row of a PGN that is not in the table of definitions (and not
less than its length, 297, below which the number is taken for an index) shows the first definition of the table, PGN 0. -/
theorem C115_window_unknown (newer : Bool) {scale : String → List Byte} (hscale : ∀ s, IsNumber (scale s))
    {ord : MapOrder} (hord : ∀ k s l, (ord k s l).Perm l) {regs : List (Str × Routes.Target)}
    (hr : Routes.AllRegistered regs) (apps added : List Str) {p : Nat} (h1 : Table.pgnList.length ≤ p) (h2 : p < 2 ^ 31)
    (h3 : ∀ q ∈ Table.pgnList, q.pgn ≠ p) :
    ∃ w, showPgnData newer scale ord regs apps added Table.pgnList (toString p).toList = some w ∧
      ∃ d, Table.pgnList[0]? = some d ∧ d.pgn = 0 ∧ Describes w d := by
  obtain ⟨i, d, g1, g2, g3⟩ := Main.C71_by_pgn (tbl := Table.pgnList) (by intro e; cases e) h1 h2 (.plain (n := p))
  rcases g3 with ⟨g3, _⟩ | ⟨rfl, _⟩
  · exact absurd g3 (h3 d (List.mem_of_getElem? g2))
  · obtain ⟨w, w1, w2⟩ := showPgnData_reply newer hscale hord hr apps added p g1
    refine ⟨w, w1, d, g2, ?_, w2⟩
    have : Table.pgnList[0]?.map Pgn.pgn = some 0 := by decide +kernel
    rw [g2] at this
    simpa using this

/-- **C115** is false of PGNs without a definition: the row of PGN 130000 opens a window that says 0. -/
theorem C115_window_false (newer : Bool) {scale : String → List Byte} (hscale : ∀ s, IsNumber (scale s))
    {ord : MapOrder} (hord : ∀ k s l, (ord k s l).Perm l) {regs : List (Str × Routes.Target)}
    (hr : Routes.AllRegistered regs) (apps added : List Str) :
    ∃ w, showPgnData newer scale ord regs apps added Table.pgnList (toString 130000).toList = some w ∧
      w.pgn = some (jnat 0) := by
  obtain ⟨w, h, d, _, h0, hd⟩ := C115_window_unknown newer hscale hord hr apps added (p := 130000) (by decide +kernel)
    (by decide) (by decide +kernel)
  exact ⟨w, h, by rw [hd.2.1, h0]⟩

/-- **C115** (names of fields): the script appends them as HTML; no name of the table has a character that HTML would
read as markup, so what is appended is the name. -/
theorem C115_field_names : ∀ d ∈ Table.pgnList, ∀ f ∈ d.fieldList, ∀ c ∈ f.name.toList, c ≠ '<' ∧ c ≠ '&' := by
  have h : Table.pgnList.all (fun d => d.fieldList.all (fun f => (bs f.name).all (fun b => b != 60 && b != 38))) = true := by
    decide +kernel
  intro d hd f hf c hc
  have h := List.all_eq_true.mp (List.all_eq_true.mp (List.all_eq_true.mp h d hd) f hf)
  have hin : ∀ b ∈ String.utf8EncodeChar c, b ∈ bs f.name := by
    intro b hb
    rw [bs_eq]
    exact List.mem_flatMap.mpr ⟨c, hc, hb⟩
  constructor
  · rintro rfl
    exact absurd (h 60 (hin 60 (by decide))) (by decide)
  · rintro rfl
    exact absurd (h 38 (hin 38 (by decide))) (by decide)

/-! ## Examples -/

/-- Two messages, the members walked backwards. -/
example : (table false (fun _ l => l.reverse) 0 [] [[("127250", 1)], [("127250", 2), ("60928", 1), ("9", 5)]]).map
      (fun e => (String.ofList e.1, match e.2 with | .num t => some t | _ => none)) =
    [("127250", some [50]), ("9", some [53]), ("60928", some [49])] := by decide +kernel

/-- What is not JSON changes nothing. -/
example : (onMessage id [("1".toList, jnat 1)] (bs "{\"1\":")).length = 1 := by decide +kernel

/-- The run of `C97_client` gives a browser a table with one row, whose PGN has a definition. -/
example : (match Main.sysExec Main.sampleProgram Main.Sys.init Main.countRun with
    | some (.ok s) => (table false (fun _ l => l) 0 [] (s.st.got 5)).map Prod.fst == ["127245".toList] &&
        Table.pgnList.any (fun q => q.pgn == 127245)
    | _ => false) = true := by decide +kernel

end Argo.Json
