import Verif.Iface.Model
import Verif.Nmea2k.Import

set_option autoImplicit false

/-! # Playing back a file (C89) -/

namespace Argo.Iface

open Argo
open Argo.Nmea2k (Pgn Parsed Val)

/-! ## Specification -/

/-- A line of a file: no newline in it, and short enough for the scanner. -/
def ShortLine (l : Str) : Prop := (10 : Byte) ∉ l ∧ l.length < 65536

/-- The content of a file with these complete lines and this unfinished last line. -/
def content (ls : List Str) (last : Str) : Str := ls.flatMap (fun l => l ++ [10]) ++ last

/-- `t` is the line without the carriage return at its end, if it has one. -/
def Stripped (l t : Str) : Prop := l = t ++ [13] ∨ (l = t ∧ t.getLast? ≠ some 13)

/-- What playing back one line does: hand over the message FromCanBoat makes of it, or log its error. -/
def Played (tbl : List Pgn) (unmarshal : Str → Nmea2k.CanBoat Val) (l : Str) (a : Act) : Prop :=
  ∃ t, Stripped l t ∧
    ((∃ r, Nmea2k.fromCanBoat tbl unmarshal t = .ok (some r) ∧ a = .handed (ofCanBoat r)) ∨
     (Nmea2k.fromCanBoat tbl unmarshal t = .ok none ∧ a = .warned))

/-! ## Proofs -/

theorem dropCR_stripped (l : Str) : Stripped l (dropCR l) := by
  unfold dropCR
  by_cases h : l.getLast? = some 13
  · rw [if_pos h]
    left
    have hne : l ≠ [] := by rintro rfl; simp at h
    rw [List.getLast?_eq_some_getLast hne, Option.some.injEq] at h
    rw [← h]
    exact (List.dropLast_concat_getLast hne).symm
  · rw [if_neg h]; exact Or.inr ⟨rfl, h⟩

theorem stripped_unique {l t u : Str} (h : Stripped l t) (h' : Stripped l u) : t = u := by
  rcases h with h | ⟨h, hn⟩ <;> rcases h' with h' | ⟨h', hn'⟩
  · rw [h] at h'; exact (List.append_inj' h' rfl).1
  · exfalso; apply hn'; rw [← h', h]; simp
  · exfalso; apply hn; rw [← h, h']; simp
  · rw [← h, ← h']

theorem scan_line (acc l rest : Str) (h : (10 : Byte) ∉ l) :
    scanLines acc (l ++ 10 :: rest) =
      if (acc ++ l).length < 65536 then dropCR (acc ++ l) :: scanLines [] rest else [] := by
  induction l generalizing acc with
  | nil => simp [scanLines]
  | cons c l ih =>
    simp only [List.mem_cons, not_or] at h
    have hc : ¬ c = 10 := fun hc => h.1 hc.symm
    rw [List.cons_append, scanLines, if_neg hc, ih _ h.2]
    simp [List.append_assoc]

theorem scan_last (acc l : Str) (h : (10 : Byte) ∉ l) :
    scanLines acc l = if acc ++ l = [] then [] else if (acc ++ l).length < 65536 then [dropCR (acc ++ l)] else [] := by
  induction l generalizing acc with
  | nil => simp [scanLines]
  | cons c l ih =>
    simp only [List.mem_cons, not_or] at h
    have hc : ¬ c = 10 := fun hc => h.1 hc.symm
    rw [scanLines, if_neg hc, ih _ h.2]
    simp [List.append_assoc]

/-- The lines of a file: the complete ones and the last one unless it is empty. -/
def allLines (ls : List Str) (last : Str) : List Str := ls ++ (if last = [] then [] else [last])

theorem scan_content (ls : List Str) (last : Str) (hl : ∀ l ∈ ls, ShortLine l) (h : ShortLine last) :
    scanLines [] (content ls last) = (allLines ls last).map dropCR := by
  unfold content allLines
  induction ls with
  | nil =>
    simp only [List.flatMap_nil, List.nil_append]
    rw [scan_last _ _ h.1]
    by_cases h0 : last = []
    · simp [h0]
    · simp [h0, h.2]
  | cons l ls ih =>
    have := hl l (by simp)
    simp only [List.flatMap_cons, List.append_assoc, List.cons_append, List.nil_append, List.map_cons]
    rw [scan_line _ _ _ this.1, List.nil_append, if_pos this.2, ih (fun x hx => hl x (by simp [hx]))]

theorem scan_long (ls : List Str) (l rest : Str) (hl : ∀ l ∈ ls, ShortLine l) (h : 65536 ≤ l.length)
    (hn : (10 : Byte) ∉ l) (hr : rest = [] ∨ ∃ r, rest = 10 :: r) :
    scanLines [] (content ls (l ++ rest)) = ls.map dropCR := by
  unfold content
  induction ls with
  | nil =>
    simp only [List.flatMap_nil, List.nil_append, List.map_nil]
    rcases hr with rfl | ⟨r, rfl⟩
    · rw [List.append_nil, scan_last _ _ hn, if_neg, if_neg]
      · simp only [List.nil_append]; omega
      · intro h0; rw [List.nil_append] at h0; rw [h0] at h; simp at h
    · rw [scan_line _ _ _ hn, if_neg]
      simp only [List.nil_append]; omega
  | cons l' ls ih =>
    have := hl l' (by simp)
    simp only [List.flatMap_cons, List.append_assoc, List.cons_append, List.nil_append, List.map_cons]
    rw [scan_line _ _ _ this.1, List.nil_append, if_pos this.2, ih (fun x hx => hl x (by simp [hx]))]

theorem fromCanBoat_ok {tbl : List Pgn} (hne : tbl ≠ []) (u : Str → Nmea2k.CanBoat Val) (l : Str) :
    ∃ r, Nmea2k.fromCanBoat tbl u l = .ok r := by
  obtain ⟨i, d, hf, _, _⟩ := Nmea2k.C33_first tbl (u l).pgn hne
  obtain ⟨j, q, hl, _, _⟩ := Nmea2k.C33_last tbl (u l).pgn hne
  simp only [Nmea2k.fromCanBoat, hf, hl, bind, Except.bind, pure, Except.pure]
  split <;> exact ⟨_, rfl⟩

theorem fileLoop_played {tbl : List Pgn} (hne : tbl ≠ []) (u : Str → Nmea2k.CanBoat Val) (ls : List Str) :
    List.Forall₂ (Played tbl u) ls (fileLoop tbl u (ls.map dropCR)) := by
  induction ls with
  | nil => exact List.Forall₂.nil
  | cons l ls ih =>
    obtain ⟨r, hr⟩ := fromCanBoat_ok hne u (dropCR l)
    rw [List.map_cons, fileLoop, hr]
    cases r with
    | none => exact List.Forall₂.cons ⟨dropCR l, dropCR_stripped l, Or.inr ⟨hr, rfl⟩⟩ ih
    | some r => exact List.Forall₂.cons ⟨dropCR l, dropCR_stripped l, Or.inl ⟨r, hr, rfl⟩⟩ ih

/-- **C89.** A file is played back line by line and in order, the last line also without a newline: each
line, without the carriage return at its end, gives one message or one warning; nothing is lost, nothing
is added, and nothing panics. -/
theorem C89_play {tbl : List Pgn} (hne : tbl ≠ []) (u : Str → Nmea2k.CanBoat Val) (ls : List Str)
    (last : Str) (hl : ∀ l ∈ ls, ShortLine l) (h : ShortLine last) :
    List.Forall₂ (Played tbl u) (allLines ls last) (fileActs tbl u (some (content ls last))) := by
  unfold fileActs
  simp only
  rw [scan_content ls last hl h]
  exact fileLoop_played hne u _

/-- What a line does is determined. -/
theorem C89_deterministic {tbl : List Pgn} {u : Str → Nmea2k.CanBoat Val} {l : Str} {a b : Act}
    (h : Played tbl u l a) (h' : Played tbl u l b) : a = b := by
  obtain ⟨t, ht, h⟩ := h
  obtain ⟨t', ht', h'⟩ := h'
  have := stripped_unique ht ht'
  subst this
  rcases h with ⟨r, h1, rfl⟩ | ⟨h1, rfl⟩ <;> rcases h' with ⟨r', h2, rfl⟩ | ⟨h2, rfl⟩
  · rw [h1] at h2; cases h2; rfl
  · rw [h1] at h2; cases h2
  · rw [h1] at h2; cases h2
  · rfl

/-- **C89** (what is handed over): a handed over message has the PGN, priority, source and destination of its
line, and under each field's number the value the line has under that field's name; the definition is the
one for that PGN, or the first of the table if there is none.  A line is refused only if its PGN has several
definitions. -/
theorem C89_message {tbl : List Pgn} {u : Str → Nmea2k.CanBoat Val} {l : Str} {a : Act}
    (h : Played tbl u l a) : ∃ t, Stripped l t ∧
      ((∃ p d, a = .handed p ∧ p.header.pgn = (u t).pgn ∧ p.header.priority = (u t).priority ∧
          p.header.source = (u t).source ∧ p.header.destination = (u t).destination ∧
          tbl[p.index]? = some d ∧ (d.pgn = (u t).pgn ∨ (p.index = 0 ∧ ∀ q ∈ tbl, q.pgn ≠ (u t).pgn)) ∧
          (((u t).fields.map Prod.fst).Nodup →
            ∀ k, Nmea2k.Spec.mapGet p.data k =
              (d.fieldList[k]?).bind (fun f => Nmea2k.Spec.mapGet (u t).fields f.name))) ∨
       (a = .warned ∧ ∃ (i j : Nat) (d q : Pgn), i < j ∧ tbl[i]? = some d ∧ tbl[j]? = some q ∧ d.pgn = (u t).pgn ∧
          q.pgn = (u t).pgn)) := by
  obtain ⟨t, ht, h⟩ := h
  refine ⟨t, ht, ?_⟩
  have hne : tbl ≠ [] := by
    rintro rfl
    rcases h with ⟨r, h, _⟩ | ⟨h, _⟩ <;>
      simp [Nmea2k.fromCanBoat, Nmea2k.first, Nmea2k.firstFrom, bind, Except.bind] at h
  obtain ⟨i, d, hf, hd, hfc⟩ := Nmea2k.C33_first tbl (u t).pgn hne
  obtain ⟨j, q, hl, hq, hlc⟩ := Nmea2k.C33_last tbl (u t).pgn hne
  have hle := Nmea2k.C33_first_le_last tbl _ hf hl
  by_cases hij : i = j
  · subst hij
    have hdq : d = q := by rw [hd] at hq; injection hq
    subst hdq
    rcases h with ⟨r, h, rfl⟩ | ⟨h, _⟩
    · left
      have h0 := h
      simp only [Nmea2k.fromCanBoat, hf, hl, bind, Except.bind, pure, Except.pure, ne_eq, not_true_eq_false,
        if_false] at h
      injection h with h
      injection h with h
      refine ⟨ofCanBoat r, d, rfl, ?_, ?_, ?_, ?_, ?_, ?_, ?_⟩
      · rw [← h]; rfl
      · rw [← h]; rfl
      · rw [← h]; rfl
      · rw [← h]; rfl
      · rw [← h]; exact hd
      · rcases hfc with ⟨k, _⟩ | ⟨k, k'⟩
        · exact Or.inl k
        · exact Or.inr ⟨by rw [← h]; exact k, k'⟩
      · intro hnd
        obtain ⟨r', e1, _, _, _, _, _, e2⟩ := Nmea2k.C52_import tbl u t hf hl hnd
        rw [h0] at e1
        injection e1 with e1
        injection e1 with e1
        rw [e1]
        exact e2
    · simp [Nmea2k.fromCanBoat, hf, hl, bind, Except.bind, pure, Except.pure] at h
  · have hlt : i < j := by omega
    rcases h with ⟨r, h, _⟩ | ⟨_, rfl⟩
    · simp [Nmea2k.fromCanBoat, hf, hl, bind, Except.bind, pure, Except.pure, hij] at h
    · right
      refine ⟨rfl, i, j, d, q, hlt, hd, hq, ?_, ?_⟩
      · rcases hfc with ⟨k, _⟩ | ⟨_, k⟩
        · exact k
        · rcases hlc with ⟨k', _⟩ | ⟨k', _⟩
          · exact absurd k' (k q (List.mem_of_getElem? hq))
          · omega
      · rcases hlc with ⟨k, _⟩ | ⟨k, _⟩
        · exact k
        · omega

/-- The limit: a line of 65536 bytes or more ends the playback without a word; all that follows it is
ignored. -/
theorem C89_long_line {tbl : List Pgn} (hne : tbl ≠ []) (u : Str → Nmea2k.CanBoat Val) (ls : List Str)
    (l rest : Str) (hl : ∀ l ∈ ls, ShortLine l) (h : 65536 ≤ l.length) (hn : (10 : Byte) ∉ l)
    (hr : rest = [] ∨ ∃ r, rest = 10 :: r) :
    List.Forall₂ (Played tbl u) ls (fileActs tbl u (some (content ls (l ++ rest)))) := by
  unfold fileActs
  simp only
  rw [scan_long ls l rest hl h hn hr]
  exact fileLoop_played hne u _

/-- Every file is of one of the two kinds. -/
theorem C89_cases (c : Str) : ∃ ls, (∀ l ∈ ls, ShortLine l) ∧
    ((∃ last, ShortLine last ∧ c = content ls last) ∨
     (∃ l rest, 65536 ≤ l.length ∧ (10 : Byte) ∉ l ∧ (rest = [] ∨ ∃ r, rest = 10 :: r) ∧
       c = content ls (l ++ rest))) := by
  induction hk : c.length using Nat.strong_induction_on generalizing c with
  | _ n ih =>
    have hsplit : c = c.takeWhile (· ≠ 10) ++ c.dropWhile (· ≠ 10) := (List.takeWhile_append_dropWhile).symm
    have hn : (10 : Byte) ∉ c.takeWhile (· ≠ 10) := fun hm => by
      have := List.all_takeWhile (p := (· ≠ 10)) (l := c)
      rw [List.all_eq_true] at this
      simpa using this _ hm
    by_cases hlen : (c.takeWhile (· ≠ 10)).length < 65536
    · cases hd : c.dropWhile (· ≠ 10) with
      | nil =>
        refine ⟨[], by simp, Or.inl ⟨c.takeWhile (· ≠ 10), ⟨hn, hlen⟩, ?_⟩⟩
        rw [hd, List.append_nil] at hsplit
        simpa [content] using hsplit
      | cons b rest =>
        have hb : b = 10 := by
          have := List.head?_dropWhile_not (p := (· ≠ 10)) c
          rw [hd] at this
          simpa using this
        subst hb
        rw [hd] at hsplit
        have hlt : rest.length < n := by
          rw [← hk]
          have := congrArg List.length hsplit
          simp only [List.length_append, List.length_cons] at this
          omega
        obtain ⟨ls, h1, h2⟩ := ih _ hlt rest rfl
        have hc : ∀ x, content (c.takeWhile (· ≠ 10) :: ls) x = c.takeWhile (· ≠ 10) ++ 10 :: content ls x := by
          intro x; simp [content]
        refine ⟨c.takeWhile (· ≠ 10) :: ls, ?_, ?_⟩
        · intro l hl
          rcases List.mem_cons.mp hl with rfl | hl
          · exact ⟨hn, hlen⟩
          · exact h1 l hl
        · rcases h2 with ⟨last, h3, h4⟩ | ⟨l, r, h3, h4, h5, h6⟩
          · exact Or.inl ⟨last, h3, by rw [hc, ← h4]; exact hsplit⟩
          · exact Or.inr ⟨l, r, h3, h4, h5, by rw [hc, ← h6]; exact hsplit⟩
    · refine ⟨[], by simp, Or.inr ⟨c.takeWhile (· ≠ 10), c.dropWhile (· ≠ 10), by omega, hn, ?_, ?_⟩⟩
      · cases hd : c.dropWhile (· ≠ 10) with
        | nil => exact Or.inl rfl
        | cons b rest =>
          have hb : b = 10 := by
            have := List.head?_dropWhile_not (p := (· ≠ 10)) c
            rw [hd] at this
            simpa using this
          exact Or.inr ⟨rest, by rw [hb]⟩
      · simp [content]

/-- A file that cannot be opened is played back as an empty one. -/
theorem C89_unreadable (tbl : List Pgn) (u : Str → Nmea2k.CanBoat Val) : fileActs tbl u none = [] := rfl

/-- Non-vacuity: three lines, one of them with a carriage return, one that does not parse; with the shipped
table the first gives a rudder message, the second (a PGN with several definitions) a warning and the
last, which is not JSON, the message of PGN 0. -/
example :
    let u : Str → Nmea2k.CanBoat Val := fun t =>
      if t = Signalk.bs "a" then ⟨2, 7, 255, 127245, [("Position", .text "x")]⟩
      else if t = Signalk.bs "b" then ⟨2, 7, 255, 130820, []⟩ else .zero
    fileActs Nmea2k.Table.pgnList u (some (content [Signalk.bs "a\r", Signalk.bs "b"] (Signalk.bs "?"))) =
      [.handed ⟨⟨2, 127245, 7, 255, 0, ⟨[], []⟩⟩, 76, [(4, .text "x")]⟩, .warned,
       .handed ⟨⟨0, 0, 0, 0, 0, ⟨[], []⟩⟩, 0, []⟩] := by decide +kernel

end Argo.Iface
