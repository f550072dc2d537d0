import Verif.Main.CatchUp
import Verif.Actisense.Props3
import Verif.Canusb.Multi

set_option autoImplicit false

/-!
# The program on arbitrary input (C92, C93)

Any number of interfaces of any kind that receive anything: bytes, read errors, empty reads, file contents; the
CANUSB interfaces share their partial messages.
-/

namespace Argo.Main

open Argo
open Argo.Actisense (stream reads)
open Argo.NgtSpec (Seen)
open Argo.Nmea2k (Parsed Val DataMap)
open Argo.Nmea2k.Table (pgnList)
open Argo.Signalk (MapTable.maps shippedReps)

/-! ## Specification -/

/-- An interface and what it receives; what CANUSB interfaces receive is given together. -/
inductive Input where
  | ngt (evs : List Ev)
  | canusb (p : Canusb.CanPort)
  | file (unmarshal : Iface.Str → Nmea2k.CanBoat Val) (content : Option Iface.Str)

/-- What the goroutine of interface `i` does (argo.go:265-313). -/
def Input.acts (parse : RawMessage → GoM Parsed) (mem : Nat → Nat → List Byte) (g : Nat → Nat) (fp : List Nat)
    (bus : List (Nat × Ev)) (i : Nat) : Input → List Iface.Act
  | .ngt evs => Iface.actisenseActs parse g evs
  | .canusb p =>
    (Iface.canusbLoop parse (mem i) 0 p (Canusb.ofPort i (Canusb.sessions g fp Canusb.fresh Canusb.noPartials bus))).1
  | .file u c => Iface.fileActs pgnList u c

/-- `l` is a line of the file. -/
def FileLine (content l : Iface.Str) : Prop :=
  ∃ before after, content = before ++ l ++ after ∧ (10 : Byte) ∉ l ∧
    (before = [] ∨ before.getLast? = some 10) ∧ (after = [] ∨ after.head? = some 10)

/-- `p` was made of something interface `i` received: for an NGT-1, of a delimited frame with a correct
checksum; for a CANUSB, of a line received there, or of several lines forming a fast packet, the last one
received there; for a file, of one of its lines. -/
def Input.Made (env : Nmea2k.Env) (fp : List Nat) (bus : List (Nat × Ev)) (i : Nat) (p : Parsed) : Input → Prop
  | .ngt evs => ∃ bs ∈ heard 0 [] evs, ∃ c ∈ NgtSpec.frames bs, NgtSpec.total c = 0 ∧
      ∃ v, (NgtSpec.verdict c = .accept v ∨ NgtSpec.verdict c = .overrun) ∧ Iface.Decoded env v p
  | .canusb _ => ∃ (pre : List (Nat × Slice)) (l : Slice) (v x : MsgView),
      (∀ j t, (j, t) ∈ pre ++ [(i, l)] → ∃ bs ∈ heard 0 [] (Canusb.ofPort j bus), Canusb.LineIn bs t.vis) ∧
      Canusb.parsed l = .frame v ∧
      Canusb.Delivered fp (Canusb.frames ((pre ++ [(i, l)]).map Prod.snd)) v x ∧ Iface.Decoded env x p
  | .file u c => ∃ content l, c = some content ∧ FileLine content l ∧ Iface.Played pgnList u l (.handed p)

/-- `ps` are all the messages interface `i` makes of what it receives, in order: an NGT-1 decodes what its Reads
return, one by one, and what they return is what the delimited frames allow; a CANUSB likewise, with
the Reads of the interfaces together; a file is played back line by line.  A decoder panic ends it. -/
def Input.Makes (env : Nmea2k.Env) (g : Nat → Nat) (fp : List Nat) (bus : List (Nat × Ev)) (i : Nat)
    (ps : List Parsed) : Input → Prop
  | .ngt evs => ∃ os as, Actisense.Heard (heard 0 [] evs) os ∧
      Iface.Handover (Nmea2k.ParsePacket pgnList env) os as ∧ ps = Iface.handed as
  | .canusb _ => ∃ as, Iface.Handover (Nmea2k.ParsePacket pgnList env)
      ((Canusb.ofPort i (Canusb.sessions g fp Canusb.fresh Canusb.noPartials bus)).map Iface.seen) as ∧
      ps = Iface.handed as
  | .file u c => ∃ ls as, List.Forall₂ (Iface.Played pgnList u) ls as ∧ ps = Iface.handed as ∧
      (c = none ∧ ls = [] ∨ ∃ done, (∀ l ∈ done, Iface.ShortLine l) ∧
        ((∃ last, Iface.ShortLine last ∧ c = some (Iface.content done last) ∧ ls = Iface.allLines done last) ∨
         ∃ l rest, 65536 ≤ l.length ∧ c = some (Iface.content done (l ++ rest)) ∧ ls = done))

/-! ## Proofs -/

theorem mem_handed {p : Parsed} {as : List Iface.Act} (h : p ∈ Iface.handed as) : Iface.Act.handed p ∈ as := by
  induction as with
  | nil => cases h
  | cons a as ih =>
    cases a with
    | handed m =>
      rcases List.mem_cons.mp (show p ∈ m :: Iface.handed as from h) with rfl | h
      · exact List.mem_cons_self
      · exact List.mem_cons_of_mem _ (ih h)
    | _ => exact List.mem_cons_of_mem _ (ih h)

theorem handover_sound {env : Nmea2k.Env} {os : List Seen} {as : List Iface.Act}
    (h : Iface.Handover (Nmea2k.ParsePacket pgnList env) os as) {p : Parsed} (hp : Iface.Act.handed p ∈ as) :
    ∃ v, Seen.msg v ∈ os ∧ Iface.Decoded env v p := by
  induction h with
  | nil => cases hp
  | ioErr _ ih =>
    rcases List.mem_cons.mp hp with hp | hp
    · cases hp
    · obtain ⟨v, h1, h2⟩ := ih hp; exact ⟨v, List.mem_cons_of_mem _ h1, h2⟩
  | crash => simp at hp
  | msg hv hd _ ih =>
    rcases List.mem_cons.mp hp with hp | hp
    · injection hp with hp
      subst hp
      refine ⟨_, List.mem_cons_self, ?_⟩
      have hh := Signalk.parsed_header hd
      exact ⟨by rw [hh]; exact hv, by rw [hh]; exact hd⟩
    · obtain ⟨v, h1, h2⟩ := ih hp; exact ⟨v, List.mem_cons_of_mem _ h1, h2⟩
  | died => simp at hp

theorem fileLine_content (ls : List Iface.Str) (tail l : Iface.Str) (hl : ∀ x ∈ ls, (10 : Byte) ∉ x) (h : l ∈ ls) :
    FileLine (Iface.content ls tail) l := by
  obtain ⟨a, b, rfl⟩ := List.append_of_mem h
  refine ⟨a.flatMap (fun x => x ++ [10]), 10 :: b.flatMap (fun x => x ++ [10]) ++ tail, ?_, hl l h, ?_, Or.inr rfl⟩
  · simp [Iface.content, List.flatMap_append, List.flatMap_cons]
  · rcases List.eq_nil_or_concat a with rfl | ⟨a', x, rfl⟩
    · exact Or.inl rfl
    · right; simp [List.flatMap_append, ← List.append_assoc]

theorem fileLine_last (ls : List Iface.Str) (last : Iface.Str) (h : (10 : Byte) ∉ last) :
    FileLine (Iface.content ls last) last := by
  refine ⟨ls.flatMap (fun x => x ++ [10]), [], by simp [Iface.content], h, ?_, Or.inl rfl⟩
  rcases List.eq_nil_or_concat ls with rfl | ⟨a', x, rfl⟩
  · exact Or.inl rfl
  · right; simp [List.flatMap_append, ← List.append_assoc]

theorem forall₂_mem {α γ : Type} {R : α → γ → Prop} {as : List α} {bs : List γ} (h : List.Forall₂ R as bs)
    {b : γ} (hb : b ∈ bs) : ∃ a ∈ as, R a b := by
  induction h with
  | nil => cases hb
  | cons hr _ ih =>
    rcases List.mem_cons.mp hb with rfl | hb
    · exact ⟨_, List.mem_cons_self, hr⟩
    · obtain ⟨a, ha, hr'⟩ := ih hb; exact ⟨a, List.mem_cons_of_mem _ ha, hr'⟩

/-- Whatever an interface hands over was made of something it received. -/
theorem handed_made {env : Nmea2k.Env} {parse : RawMessage → GoM Parsed}
    (hparse : ∀ m, Nmea2k.ParsePacket pgnList env m (parse m)) (mem : Nat → Nat → List Byte) (g : Nat → Nat)
    (fp : List Nat) (bus : List (Nat × Ev)) (i : Nat) (inp : Input) {p : Parsed}
    (hp : p ∈ Iface.handed (inp.acts parse mem g fp bus i)) : inp.Made env fp bus i p := by
  have hp' := mem_handed hp
  cases inp with
  | ngt evs =>
    obtain ⟨v, h1, h2⟩ := handover_sound (Iface.C90_handover hparse g evs) hp'
    obtain ⟨bs, hb, c, hc, ht, hv⟩ := Actisense.C05_history g evs v h1
    exact ⟨bs, hb, c, hc, ht, v, hv, h2⟩
  | canusb port =>
    have hh := Iface.C91_handover hparse (mem i) 0 port
      (Canusb.ofPort i (Canusb.sessions g fp Canusb.fresh Canusb.noPartials bus))
    have hp2 : Iface.Act.handed p ∈ Iface.others (Iface.canusbLoop parse (mem i) 0 port
        (Canusb.ofPort i (Canusb.sessions g fp Canusb.fresh Canusb.noPartials bus))).1 :=
      List.mem_filter.mpr ⟨hp', rfl⟩
    obtain ⟨x, h1, h2⟩ := handover_sound hh hp2
    obtain ⟨ob, ho, he⟩ := List.mem_map.mp h1
    have hob : ob = .msg x := by
      cases ob with
      | msg y => simp only [Iface.seen, Seen.msg.injEq] at he; rw [he]
      | ioErr => cases he
      | crash => cases he
    subst hob
    obtain ⟨y, hy, hy'⟩ := List.mem_map.mp ho
    obtain ⟨hy1, hy2⟩ := List.mem_filter.mp hy
    obtain ⟨j, o⟩ := y
    simp only [beq_iff_eq] at hy2 hy'
    subst hy2 hy'
    obtain ⟨pre, l, v, k1, k2, k3⟩ := Canusb.C96_origin g fp bus j x hy1
    exact ⟨pre, l, v, x, k1, k2, k3, h2⟩
  | file u c =>
    cases c with
    | none => cases hp'
    | some content =>
      obtain ⟨ls, hls, hcase⟩ := Iface.C89_cases content
      rcases hcase with ⟨last, hlast, rfl⟩ | ⟨l, rest, hlen, hn, hrest, rfl⟩
      · obtain ⟨l, hl, hpl⟩ := forall₂_mem (Iface.C89_play (by decide +kernel) u ls last hls hlast) hp'
        refine ⟨_, l, rfl, ?_, hpl⟩
        unfold Iface.allLines at hl
        rcases List.mem_append.mp hl with hl | hl
        · exact fileLine_content ls last l (fun x hx => (hls x hx).1) hl
        · split at hl
          · cases hl
          · rw [List.mem_singleton.mp hl]; exact fileLine_last ls last hlast.1
      · obtain ⟨l', hl, hpl⟩ := forall₂_mem (Iface.C89_long_line (by decide +kernel) u ls l rest hls hlen hn hrest) hp'
        exact ⟨_, l', rfl, fileLine_content ls _ l' (fun x hx => (hls x hx).1) hl, hpl⟩

/-- What an interface hands over is all it makes of what it receives. -/
theorem handed_makes {env : Nmea2k.Env} {parse : RawMessage → GoM Parsed}
    (hparse : ∀ m, Nmea2k.ParsePacket pgnList env m (parse m)) (mem : Nat → Nat → List Byte) (g : Nat → Nat)
    (fp : List Nat) (bus : List (Nat × Ev)) (i : Nat) (inp : Input) :
    inp.Makes env g fp bus i (Iface.handed (inp.acts parse mem g fp bus i)) := by
  cases inp with
  | ngt evs => exact ⟨_, _, Actisense.C11_exact g evs, Iface.C90_handover hparse g evs, rfl⟩
  | canusb port =>
    refine ⟨_, Iface.C91_handover hparse (mem i) 0 port _, ?_⟩
    rw [handed_others]
    rfl
  | file u c =>
    cases c with
    | none => exact ⟨[], [], List.Forall₂.nil, rfl, Or.inl ⟨rfl, rfl⟩⟩
    | some content =>
      obtain ⟨ls, hls, hcase⟩ := Iface.C89_cases content
      rcases hcase with ⟨last, hlast, rfl⟩ | ⟨l, rest, hlen, hn, hrest, rfl⟩
      · exact ⟨_, _, Iface.C89_play (by decide +kernel) u ls last hls hlast, rfl,
          Or.inr ⟨ls, hls, Or.inl ⟨last, hlast, rfl, rfl⟩⟩⟩
      · exact ⟨_, _, Iface.C89_long_line (by decide +kernel) u ls l rest hls hlen hn hrest, rfl,
          Or.inr ⟨ls, hls, Or.inr ⟨l, rest, hlen, rfl, rfl⟩⟩⟩

/-- Whatever was made of something received is a genuine message. -/
theorem made_genuine {env : Nmea2k.Env} {fp : List Nat} {bus : List (Nat × Ev)} {i : Nat} {inp : Input} {p : Parsed}
    (h : inp.Made env fp bus i p) : Genuine p := by
  cases inp with
  | ngt evs =>
    obtain ⟨_, _, _, _, _, _, _, h⟩ := h
    exact Or.inl ⟨env, p.header, h.2⟩
  | canusb port =>
    obtain ⟨_, _, _, _, _, _, _, h⟩ := h
    exact Or.inl ⟨env, p.header, h.2⟩
  | file u c =>
    obtain ⟨_, l, _, _, t, _, h⟩ := h
    rcases h with ⟨r, h1, h2⟩ | ⟨_, h2⟩
    · injection h2 with h2
      exact Or.inr ⟨u, t, r, h1, h2⟩
    · cases h2

section
variable {β : Type} [DecidableEq β] {sort : List String → List String} {opts : Opts} {out : Outputs}
  {verbose : Bool} {denv : Signalk.Env Val} {marshal : Nat → List (Signalk.Update Val) → Option β}

omit [DecidableEq β] in
/-- A schedule fed by interfaces has genuine input. -/
theorem feeds_genuine {env : Nmea2k.Env} {parse : RawMessage → GoM Parsed}
    (hparse : ∀ m, Nmea2k.ParsePacket pgnList env m (parse m)) (mem : Nat → Nat → List Byte) (g : Nat → Nat)
    (fp : List Nat) (bus : List (Nat × Ev)) (inputs : Nat → Input) {es : List (SysEvent Body β)}
    (hfeed : Feeds es (fun i => (inputs i).acts parse mem g fp bus i)) : GenuineInput es := by
  intro i m hm
  obtain ⟨h1, h2⟩ := hfeed i
  exact ⟨made_genuine (handed_made hparse mem g fp bus i (inputs i) (h1.subset (List.mem_map_of_mem hm))), h2 m hm⟩

/-- **C92** (any input): whatever the interfaces receive, the loop and the hubs never panic on what is handed
over. -/
theorem C92_any {env : Nmea2k.Env} {parse : RawMessage → GoM Parsed}
    (hparse : ∀ m, Nmea2k.ParsePacket pgnList env m (parse m)) (mem : Nat → Nat → List Byte) (g : Nat → Nat)
    (fp : List Nat) (bus : List (Nat × Ev)) (inputs : Nat → Input) {es : List (SysEvent Body β)} (ho : Ordinary es)
    (hfeed : Feeds es (fun i => (inputs i).acts parse mem g fp bus i)) (p : Panic) :
    sysExec (shippedProgram sort opts out verbose denv marshal) Sys.init es ≠ some (.error p) :=
  C92_safe ho (feeds_genuine hparse mem g fp bus inputs hfeed) p

/-- **C93** (nothing is made up, any input): whatever the interfaces receive, every delta a client receives, at
any moment of any schedule, was computed from a message made of something one of them received, and carries
that message's PGN and source. -/
theorem C93_any {env : Nmea2k.Env} {parse : RawMessage → GoM Parsed}
    (hparse : ∀ m, Nmea2k.ParsePacket pgnList env m (parse m)) (mem : Nat → Nat → List Byte) (g : Nat → Nat)
    (fp : List Nat) (bus : List (Nat × Ev)) (inputs : Nat → Input) {es : List (SysEvent Body β)} (ho : Ordinary es)
    (hfeed : Feeds es (fun i => (inputs i).acts parse mem g fp bus i))
    {s : Sys Body β} (h : sysExec (shippedProgram sort opts out verbose denv marshal) Sys.init es = some (.ok s))
    {c : Hub.Id} (hc : Hub.Spec.registered c (wsTrace es)) {b : β} (hb : b ∈ s.ws.got c) :
    ∃ i p, (inputs i).Made env fp bus i p ∧ ∃ order now values, order.Perm p.data ∧
      Signalk.delta denv shippedReps MapTable.maps (Signalk.toMsg { p with data := order }) =
        .ok (some [⟨p.header.pgn, p.header.source, values⟩]) ∧
      marshal now [⟨p.header.pgn, p.header.source, values⟩] = some b := by
  obtain ⟨i, m, hm, hd⟩ := client_origin ho h hc hb
  obtain ⟨values, h1, h2⟩ := delta_header hd
  obtain ⟨hpre, hperm⟩ := hfeed i
  exact ⟨i, parsedOf m, handed_made hparse mem g fp bus i (inputs i) (hpre.subset (List.mem_map_of_mem hm)),
    m.body.order, m.body.now, values, hperm m hm, h1, h2⟩

/-- **C93** (nothing is lost, any input): when the interfaces have handed over all they make of what they
received, the consumer and the hub are done and a client connected since the first delta has kept up, it has
received exactly the deltas of those messages: those of each interface in order, interleaved as the consumer
took them. -/
theorem C93_any_complete {env : Nmea2k.Env} {parse : RawMessage → GoM Parsed}
    (hparse : ∀ m, Nmea2k.ParsePacket pgnList env m (parse m)) (mem : Nat → Nat → List Byte) (g : Nat → Nat)
    (fp : List Nat) (bus : List (Nat × Ev)) (inputs : Nat → Input) {es : List (SysEvent Body β)} (ho : Ordinary es)
    (hall : ∀ i, (readBy i es).map parsedOf = Iface.handed ((inputs i).acts parse mem g fp bus i))
    {s : Sys Body β} (h : sysExec (shippedProgram sort opts out verbose denv marshal) Sys.init es = some (.ok s))
    (hp : ∀ i, s.pending i = none) (ht : s.todo = []) (hpc : s.ws.pc = .idle) (hw : out.websockets = true)
    {c : Hub.Id} (hc : Hub.Spec.registered c (wsTrace es)) (h0 : before c (wsTrace es) = 0)
    (hin : c ∈ s.ws.conns) (hbuf : (s.ws.chan c).buf = []) :
    ∃ taken : List (Nat × Message Body),
      (∀ i, (inputs i).Makes env g fp bus i ((takenFrom i taken).map parsedOf)) ∧
      s.ws.got c = deltasOf (shippedProgram sort opts out verbose denv marshal).delta (taken.map Prod.snd) := by
  refine ⟨s.consumed, fun i => ?_, ?_⟩
  · have hord := C69_order h i
    rw [hp i] at hord
    simp only [Option.toList_none, List.append_nil] at hord
    rw [hord, hall i]
    exact handed_makes hparse mem g fp bus i (inputs i)
  · rw [C82_caught_up ho h hc hw hin hbuf hpc ht, h0, List.drop_zero]

end

/-- Interface 0 is an NGT-1 that receives the sample frame. -/
def runInput (i : Nat) : Input := .ngt (if i = 0 then Actisense.stream (NgtSpec.wire Actisense.sampleContent) else [])

/-- The hypotheses of `C92_any`, `C93_any` and `C93_any_complete` are met by the run of `wholeRun`. -/
example : Ordinary wholeRun ∧
    Feeds wholeRun (fun i => (runInput i).acts (Iface.someParse runTables) (fun _ _ => []) (fun _ => 0) [] [] i) ∧
    Hub.Spec.registered 5 (wsTrace wholeRun) ∧ before 5 (wsTrace wholeRun) = 0 := by
  refine ⟨run_ok.2.1, ?_, run_ok.2.2.2.2.1, run_ok.2.2.2.2.2⟩
  have hf := run_ok.2.2.1
  intro i
  have e : (runInput i).acts (Iface.someParse runTables) (fun _ _ => []) (fun _ => 0) [] [] i =
      (runSource i).acts (Iface.someParse runTables) (fun _ => []) (fun _ => 0) := by
    by_cases hi : i = 0
    · simp [runInput, runSource, Input.acts, Source.acts, hi]
    · simp [runInput, runSource, Input.acts, Source.acts, hi]
  have := hf i
  simp only [← e] at this
  exact this

end Argo.Main
