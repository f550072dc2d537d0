import Verif.Canusb.Model
import Verif.Nmea2k.Import

set_option autoImplicit false

/-!
# The log line of a raw message and of a CAN frame (C103)
-/

namespace Argo.Can

open Argo Argo.Canusb

/-! ## Model -/

/-- `%v` or `%d` of an unsigned number. -/
def dec (n : Nat) : List Char := (toString n).toList

/-- One digit of `%x`. -/
def hexLower (n : Nat) : Char := if n < 10 then Char.ofNat (48 + n) else Char.ofNat (87 + n)

/-- `%.2x` of a byte, and each byte of `% x`. -/
def hex (b : Byte) : List Char := [hexLower (b.toNat / 16), hexLower (b.toNat % 16)]

/-- `% x` of a byte slice: the bytes in hexadecimal, a space between two. -/
def hexSpaced : List Byte → List Char
  | [] => []
  | [b] => hex b
  | b :: bs => hex b ++ ' ' :: hexSpaced bs

/-- can/can.go:65-69 `RawMessage.Print`; `stamp` is the receipt time in the layout of line 27.  The argument
`verbose` is not used by the code. -/
def print (stamp : List Char) (m : RawMessage) (_verbose : Bool) : List Char :=
  stamp ++ ' ' :: dec m.priority.toNat ++ ' ' :: dec m.source.toNat ++ ' ' :: dec m.destination.toNat ++
    ' ' :: dec m.pgn ++ ' ' :: dec m.length.toNat ++ ':' :: ' ' :: hexSpaced m.data.vis

/-- canframe.go:26-33: the number of a message type. -/
def typeNumber : MsgType → Nat
  | .CAN_STD => 0
  | .CAN_EXT => 1
  | .CAN_STD_RTR => 2
  | .CAN_EXT_RTR => 3

/-- canframe.go:82-93 `CanFrame.String`. -/
def frameString (f : CanFrame) : List Char :=
  dec (typeNumber f.msgType) ++ ':' :: ' ' :: dec f.priority.toNat ++ ' ' :: dec f.source.toNat ++
    ' ' :: dec f.destination.toNat ++ ' ' :: dec f.pgn ++ ' ' :: dec f.length.toNat ++ ' ' :: dec f.seq.toNat ++
    ':' :: ' ' :: f.data.flatMap (fun b => '[' :: hex b ++ [']']) ++ ['\n']

/-! ## Lemmas -/

theorem split_at {c : Char} {a b x y : List Char} (ha : c ∉ a) (hb : c ∉ b) (h : a ++ c :: x = b ++ c :: y) :
    a = b ∧ x = y := by
  induction a generalizing b with
  | nil =>
    cases b with
    | nil => simp only [List.nil_append, List.cons.injEq, true_and] at h; exact ⟨rfl, h⟩
    | cons d b =>
      simp only [List.nil_append, List.cons_append, List.cons.injEq] at h
      exact absurd (h.1 ▸ List.mem_cons_self) hb
  | cons e a ih =>
    cases b with
    | nil =>
      simp only [List.nil_append, List.cons_append, List.cons.injEq] at h
      exact absurd (h.1 ▸ List.mem_cons_self) ha
    | cons d b =>
      simp only [List.cons_append, List.cons.injEq] at h
      obtain ⟨h1, h2⟩ := ih (fun hc => ha (List.mem_cons_of_mem _ hc)) (fun hc => hb (List.mem_cons_of_mem _ hc)) h.2
      exact ⟨by rw [h.1, h1], h2⟩

theorem dec_digit {n : Nat} {c : Char} (h : c ∈ dec n) : c.isDigit = true := by
  unfold dec at h
  have : (toString n).toList = Nat.toDigits 10 n := Nat.toList_repr
  rw [this] at h
  exact Nat.isDigit_of_mem_toDigits (by omega) (by omega) h

theorem dec_not {n : Nat} {c : Char} (hc : c.isDigit = false) : c ∉ dec n := by
  intro h
  rw [dec_digit h] at hc; cases hc

theorem dec_inj {a b : Nat} (h : dec a = dec b) : a = b := by
  have : toString a = toString b := String.toList_inj.mp h
  have : toString (a : Int) = toString (b : Int) := this
  exact_mod_cast Nmea2k.toString_int_injective this

theorem hex_inj : ∀ a b : Byte, hex a = hex b → a = b := by
  have key : ∀ x < 16, ∀ y < 16, hexLower x = hexLower y → x = y := by decide
  intro a b h
  unfold hex at h
  simp only [List.cons.injEq, and_true] at h
  have ha := a.toNat_lt
  have hb := b.toNat_lt
  have h1 := key _ (by omega) _ (by omega) h.1
  have h2 := key _ (by omega) _ (by omega) h.2
  exact UInt8.toNat_inj.mp (by omega)

theorem hexSpaced_inj : ∀ a b : List Byte, hexSpaced a = hexSpaced b → a = b
  | [], [], _ => rfl
  | [], [_], h => by simp [hexSpaced, hex] at h
  | [], _ :: _ :: _, h => by simp [hexSpaced, hex] at h
  | [_], [], h => by simp [hexSpaced, hex] at h
  | _ :: _ :: _, [], h => by simp [hexSpaced, hex] at h
  | [a], [b], h => by rw [hex_inj a b h]
  | [_], _ :: _ :: _, h => by simp [hexSpaced, hex] at h
  | _ :: _ :: _, [_], h => by simp [hexSpaced, hex] at h
  | a :: a' :: as, b :: b' :: bs, h => by
    have h : hex a ++ ' ' :: hexSpaced (a' :: as) = hex b ++ ' ' :: hexSpaced (b' :: bs) := h
    have e := List.append_inj h rfl
    have e2 : hexSpaced (a' :: as) = hexSpaced (b' :: bs) := by
      have := e.2; simpa using this
    rw [hex_inj a b e.1, hexSpaced_inj (a' :: as) (b' :: bs) e2]

/-! ## C103 -/

/-- **C103** (raw messages): two log lines are equal only if the receipt times are shown the same and the messages
have the same priority, source, destination, PGN, length and data. -/
theorem C103_raw {s s' : List Char} (hs : ' ' ∉ s) (hs' : ' ' ∉ s') {m m' : RawMessage} {v v' : Bool}
    (h : print s m v = print s' m' v') :
    s = s' ∧ m.priority = m'.priority ∧ m.source = m'.source ∧ m.destination = m'.destination ∧ m.pgn = m'.pgn ∧
      m.length = m'.length ∧ m.data.vis = m'.data.vis := by
  unfold print at h
  simp only [List.append_assoc, List.cons_append] at h
  have sp : ∀ n, ' ' ∉ dec n := fun n => dec_not (by decide)
  obtain ⟨h0, h⟩ := split_at hs hs' h
  obtain ⟨h1, h⟩ := split_at (sp _) (sp _) h
  obtain ⟨h2, h⟩ := split_at (sp _) (sp _) h
  obtain ⟨h3, h⟩ := split_at (sp _) (sp _) h
  obtain ⟨h4, h⟩ := split_at (sp _) (sp _) h
  obtain ⟨h5, h⟩ := split_at (c := ':') (dec_not (by decide)) (dec_not (by decide)) h
  simp only [List.cons.injEq, true_and] at h
  exact ⟨h0, UInt8.toNat_inj.mp (dec_inj h1), UInt8.toNat_inj.mp (dec_inj h2), UInt8.toNat_inj.mp (dec_inj h3),
    dec_inj h4, UInt8.toNat_inj.mp (dec_inj h5), hexSpaced_inj _ _ h⟩

theorem brackets_inj : ∀ a b : List Byte, a.flatMap (fun b => '[' :: hex b ++ [']']) =
    b.flatMap (fun b => '[' :: hex b ++ [']']) → a = b
  | [], [], _ => rfl
  | [], _ :: _, h => by simp [hex] at h
  | _ :: _, [], h => by simp [hex] at h
  | a :: as, b :: bs, h => by
    rw [List.flatMap_cons, List.flatMap_cons] at h
    have e := List.append_inj h rfl
    have e1 : hex a = hex b := by
      have := e.1
      simp only [hex, List.cons_append, List.nil_append, List.cons.injEq, true_and, and_true] at this ⊢
      exact this
    rw [hex_inj a b e1, brackets_inj as bs e.2]

/-- **C103** (frames): the text of a CAN frame determines its type, priority, source, destination, PGN, length,
sequence number and data. -/
theorem C103_frame {f f' : CanFrame} (h : frameString f = frameString f') :
    f.msgType = f'.msgType ∧ f.priority = f'.priority ∧ f.source = f'.source ∧ f.destination = f'.destination ∧
      f.pgn = f'.pgn ∧ f.length = f'.length ∧ f.seq = f'.seq ∧ f.data = f'.data := by
  unfold frameString at h
  simp only [List.append_assoc, List.cons_append] at h
  have sp : ∀ n, ' ' ∉ dec n := fun n => dec_not (by decide)
  have co : ∀ n, ':' ∉ dec n := fun n => dec_not (by decide)
  obtain ⟨h0, h⟩ := split_at (co _) (co _) h
  simp only [List.cons.injEq, true_and] at h
  obtain ⟨h1, h⟩ := split_at (sp _) (sp _) h
  obtain ⟨h2, h⟩ := split_at (sp _) (sp _) h
  obtain ⟨h3, h⟩ := split_at (sp _) (sp _) h
  obtain ⟨h4, h⟩ := split_at (sp _) (sp _) h
  obtain ⟨h5, h⟩ := split_at (sp _) (sp _) h
  obtain ⟨h6, h⟩ := split_at (co _) (co _) h
  simp only [List.cons.injEq, true_and] at h
  have ht : ∀ a b, typeNumber a = typeNumber b → a = b := by
    intro a b; cases a <;> cases b <;> simp [typeNumber]
  refine ⟨ht _ _ (dec_inj h0), UInt8.toNat_inj.mp (dec_inj h1), UInt8.toNat_inj.mp (dec_inj h2),
    UInt8.toNat_inj.mp (dec_inj h3), dec_inj h4, UInt8.toNat_inj.mp (dec_inj h5), UInt8.toNat_inj.mp (dec_inj h6), ?_⟩
  have := List.append_inj_left' h rfl
  exact brackets_inj _ _ this

/-! ### The order of the words -/

/-- The words of a line: what is between spaces. -/
def words : List Char → List (List Char)
  | [] => [[]]
  | c :: l =>
    if c = ' ' then [] :: words l
    else match words l with
      | w :: ws => (c :: w) :: ws
      | [] => [[c]]

/-- The value of a hexadecimal digit. -/
def digitOf (c : Char) : Option Nat :=
  if '0' ≤ c ∧ c ≤ '9' then some (c.toNat - '0'.toNat)
  else if 'a' ≤ c ∧ c ≤ 'f' then some (c.toNat - 'a'.toNat + 10)
  else none

/-- The byte two hexadecimal digits show. -/
def byteOf : List Char → Option Byte
  | [a, b] =>
    match digitOf a, digitOf b with
    | some x, some y => some (UInt8.ofNat (16 * x + y))
    | _, _ => none
  | _ => none

/-- The word shows the number in decimal. -/
def Number (n : Nat) (w : List Char) : Prop := w = Nat.toDigits 10 n

theorem words_cons {a : List Char} (ha : ' ' ∉ a) (l : List Char) : words (a ++ ' ' :: l) = a :: words l := by
  induction a with
  | nil => simp [words]
  | cons c a ih =>
    have hc : c ≠ ' ' := fun e => ha (by simp [e])
    rw [List.cons_append, words, if_neg hc, ih (fun h => ha (List.mem_cons_of_mem _ h))]

theorem words_one {a : List Char} (ha : ' ' ∉ a) : words a = [a] := by
  induction a with
  | nil => rfl
  | cons c a ih =>
    have hc : c ≠ ' ' := fun e => ha (by simp [e])
    rw [words, if_neg hc, ih (fun h => ha (List.mem_cons_of_mem _ h))]

theorem byteOf_hex (b : Byte) : byteOf (hex b) = some b ∧ ' ' ∉ hex b := by
  have key : ∀ n : Fin 256, byteOf (hex (UInt8.ofNat n.val)) = some (UInt8.ofNat n.val) ∧ ' ' ∉ hex (UInt8.ofNat n.val) := by
    decide +kernel
  simpa using key ⟨b.toNat, b.toNat_lt⟩

theorem dec_number (n : Nat) : Number n (dec n) := Nat.toList_repr

theorem words_hex (l : List Byte) (hl : l ≠ []) : (words (hexSpaced l)).map byteOf = l.map some := by
  induction l with
  | nil => exact absurd rfl hl
  | cons b l ih =>
    cases l with
    | nil => simp only [hexSpaced, words_one (byteOf_hex b).2, List.map_cons, List.map_nil, (byteOf_hex b).1]
    | cons c l =>
      simp only [hexSpaced]
      rw [words_cons (byteOf_hex b).2, List.map_cons, (byteOf_hex b).1, List.map_cons, ih (by simp)]

/-- **C103** (order): the words of a log line are the receipt time, the priority, the source, the destination, the PGN,
the length with a colon, and then the bytes of the data in hexadecimal. -/
theorem C103_layout {s : List Char} (hs : ' ' ∉ s) (m : RawMessage) (v : Bool) :
    ∃ p src dst pgn len data, words (print s m v) = [s, p, src, dst, pgn, len ++ [':']] ++ data ∧
      Number m.priority.toNat p ∧ Number m.source.toNat src ∧ Number m.destination.toNat dst ∧ Number m.pgn pgn ∧
      Number m.length.toNat len ∧ (if m.data.vis = [] then data = [[]] else data.map byteOf = m.data.vis.map some) := by
  have sp : ∀ n, ' ' ∉ dec n := fun n => dec_not (by decide)
  refine ⟨_, _, _, _, _, words (hexSpaced m.data.vis), ?_, dec_number _, dec_number _, dec_number _, dec_number _, dec_number _, ?_⟩
  · have e : print s m v = s ++ ' ' :: (dec m.priority.toNat ++ ' ' :: (dec m.source.toNat ++ ' ' ::
        (dec m.destination.toNat ++ ' ' :: (dec m.pgn ++ ' ' :: ((dec m.length.toNat ++ [':']) ++
          ' ' :: hexSpaced m.data.vis))))) := by
      unfold print
      simp only [List.append_assoc, List.cons_append, List.nil_append]
    have hc : ' ' ∉ dec m.length.toNat ++ [':'] := by simp [sp]
    rw [e, words_cons hs, words_cons (sp _), words_cons (sp _), words_cons (sp _), words_cons (sp _), words_cons hc]
    rfl
  · split
    · next h => rw [h]; rfl
    · next h => exact words_hex _ h

/-- The bytes in brackets. -/
def Bracketed : List Byte → List Char → Prop
  | [], l => l = ['\n']
  | b :: bs, l => ∃ x r, l = '[' :: x ++ ']' :: r ∧ byteOf x = some b ∧ Bracketed bs r

theorem bracketed (l : List Byte) : Bracketed l (l.flatMap (fun b => '[' :: hex b ++ [']']) ++ ['\n']) := by
  induction l with
  | nil => rfl
  | cons b l ih => exact ⟨hex b, _, by simp, (byteOf_hex b).1, ih⟩

/-- **C103** (order): the words of the text of a frame are the type (0 standard, 1 extended, 2 and 3 the same as
remote requests) with a colon, the priority, the source, the destination, the PGN, the length, the sequence number with a
colon, and the bytes of the data in hexadecimal in brackets. -/
theorem C103_frame_layout (f : CanFrame) :
    ∃ t p src dst pgn len seq data, words (frameString f) = [t ++ [':'], p, src, dst, pgn, len, seq ++ [':'], data] ∧
      Number (match f.msgType with | .CAN_STD => 0 | .CAN_EXT => 1 | .CAN_STD_RTR => 2 | .CAN_EXT_RTR => 3) t ∧
      Number f.priority.toNat p ∧ Number f.source.toNat src ∧ Number f.destination.toNat dst ∧ Number f.pgn pgn ∧
      Number f.length.toNat len ∧ Number f.seq.toNat seq ∧ Bracketed f.data data := by
  have sp : ∀ n, ' ' ∉ dec n := fun n => dec_not (by decide)
  have hb : ∀ l : List Byte, ' ' ∉ l.flatMap (fun b => '[' :: hex b ++ [']']) := by
    intro l h
    obtain ⟨b, _, hb⟩ := List.mem_flatMap.mp h
    simp only [List.cons_append, List.mem_cons, List.mem_append, List.mem_singleton] at hb
    rcases hb with h | h | h
    · exact absurd h (by decide)
    · exact (byteOf_hex b).2 h
    · rcases h with h | h
      · exact absurd h (by decide)
      · cases h
  refine ⟨dec (typeNumber f.msgType), _, _, _, _, _, _, _, ?_, ?_, dec_number _, dec_number _, dec_number _, dec_number _,
    dec_number _, dec_number _, bracketed f.data⟩
  · have e : frameString f = (dec (typeNumber f.msgType) ++ [':']) ++ ' ' :: (dec f.priority.toNat ++ ' ' ::
        (dec f.source.toNat ++ ' ' :: (dec f.destination.toNat ++ ' ' :: (dec f.pgn ++ ' ' :: (dec f.length.toNat ++ ' ' ::
          ((dec f.seq.toNat ++ [':']) ++ ' ' :: (f.data.flatMap (fun b => '[' :: hex b ++ [']']) ++ ['\n']))))))) := by
      unfold frameString
      simp only [List.append_assoc, List.cons_append, List.nil_append]
    have hc : ∀ n, ' ' ∉ dec n ++ [':'] := by intro n; simp [sp]
    rw [e, words_cons (hc _), words_cons (sp _), words_cons (sp _), words_cons (sp _), words_cons (sp _), words_cons (sp _),
      words_cons (hc _), words_one]
    intro h
    rcases List.mem_append.mp h with h | h
    · exact hb _ h
    · exact absurd (List.mem_singleton.mp h) (by decide)
  · cases f.msgType <;> exact dec_number _

/-- The text of a frame does not show its group: frames of different fast packets can look the same. -/
theorem C103_false : ∃ f f' : CanFrame, f.grp ≠ f'.grp ∧ frameString f = frameString f' :=
  ⟨⟨6, 129029, 1, 255, 8, [1], .CAN_EXT, 0, 0, 0⟩, ⟨6, 129029, 1, 255, 8, [1], .CAN_EXT, 0, 1, 0⟩, by decide, rfl⟩

example : String.ofList (print "2016-05-01-12:00:00.000".toList ⟨6, 60928, 3, 255, 2, ⟨[1, 0xab], [7]⟩⟩ true) =
    "2016-05-01-12:00:00.000 6 3 255 60928 2: 01 ab" := by decide +kernel

example : String.ofList (frameString ⟨6, 129029, 1, 255, 2, [1, 0xff], .CAN_EXT, 0, 0, 3⟩) =
    "1: 6 1 255 129029 2 3: [01][ff]\n" := by decide +kernel

end Argo.Can
