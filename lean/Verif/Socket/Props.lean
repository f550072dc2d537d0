import Verif.Socket.Spec
import Verif.Socket.Model

set_option autoImplicit false

/-! # C127: what a client reads from the connection -/

namespace Argo.Socket

open Argo

/-! ## Specification -/

/-- What a client is to notice of a round of the pump. -/
def said : Wake → Got
  | .message m => .text m
  | .closed => .close []
  | .tick => .ping []

/-- The messages can be sent as texts. -/
def Sendable (ts : List Turn) : Prop := ∀ t ∈ ts, ∀ m, t.wake = .message m → isText m = true ∧ m.length < 2 ^ 63

/-- No write has failed, and the channel was not closed before the last round. -/
def Clean (ts : List Turn) : Prop := (∀ t ∈ ts, t.fault = none) ∧ ∀ t ∈ ts.dropLast, t.wake ≠ .closed

/-! ## Frames -/

theorem putBig_length (w n : Nat) : (putBig w n).length = w := by
  induction w generalizing n with
  | zero => rfl
  | succ w ih => simp [putBig, ih]

theorem bigEndian_putBig (w n : Nat) (h : n < 256 ^ w) : bigEndian (putBig w n) = n := by
  induction w generalizing n with
  | zero => simp [putBig, bigEndian] at h ⊢; omega
  | succ w ih =>
    have h1 : n / 256 < 256 ^ w := by rw [Nat.pow_succ] at h; exact Nat.div_lt_of_lt_mul (by omega)
    have := ih _ h1
    unfold bigEndian at this ⊢
    rw [putBig, List.foldl_append, this]
    simp only [List.foldl_cons, List.foldl_nil, UInt8.toNat_ofNat']
    omega

/-- The frame of a text or of an empty control frame. -/
structure Ok (op : Nat) (p : List Byte) : Prop where
  op : op = 1 ∨ (op = 8 ∨ op = 9) ∧ p = []
  len : p.length < 2 ^ 63

theorem first_byte {op : Nat} {p : List Byte} (h : Ok op p) :
    (UInt8.ofNat (128 + op)).toNat = 128 + op ∧ (128 + op) / 16 % 8 = 0 ∧ (128 + op) % 16 = op := by
  rcases h.op with rfl | ⟨rfl | rfl, _⟩ <;> decide

theorem payload_ok {op : Nat} {p : List Byte} (h : Ok op p) (r : List Byte) :
    payload (UInt8.ofNat (128 + op)) p.length (p ++ r) = .frame ⟨true, op, p⟩ r := by
  obtain ⟨b1, b2, b3⟩ := first_byte h
  unfold payload
  rw [b1, b3, if_neg, if_neg (by simp), List.take_left, List.drop_left]
  · simp
  · rcases h.op with rfl | ⟨_, rfl⟩
    · omega
    · simp

theorem payload_more {op : Nat} {p r : List Byte} (h : Ok op p) (hr : r.length < p.length) :
    payload (UInt8.ofNat (128 + op)) p.length r = .more := by
  obtain ⟨b1, b2, b3⟩ := first_byte h
  unfold payload
  rw [b1, b3, if_neg, if_pos hr]
  rcases h.op with rfl | ⟨_, rfl⟩
  · omega
  · simp

theorem start_frame {op : Nat} {p : List Byte} (h : Ok op p) (r : List Byte) :
    start (frame op p ++ r) = .frame ⟨true, op, p⟩ r := by
  obtain ⟨b1, b2, b3⟩ := first_byte h
  have hl := h.len
  unfold frame
  split
  · next h1 =>
    have e := bigEndian_putBig 8 p.length (by omega)
    simp only [List.cons_append, start, List.append_assoc]
    rw [b1, if_neg (by omega), if_neg (by decide), if_neg (by decide), if_pos (by decide), if_neg (by simp [putBig_length]),
      List.take_left' (putBig_length 8 _), List.drop_left' (putBig_length 8 _), e, if_neg (by omega)]
    exact payload_ok h r
  · next h1 =>
    split
    · next h2 =>
      have e := bigEndian_putBig 2 p.length (by omega)
      simp only [List.cons_append, start, List.append_assoc]
      rw [b1, if_neg (by omega), if_neg (by decide), if_pos (by decide), if_neg (by simp [putBig_length]),
        List.take_left' (putBig_length 2 _), List.drop_left' (putBig_length 2 _), e, if_neg (by omega)]
      exact payload_ok h r
    · next h2 =>
      have e : (UInt8.ofNat p.length).toNat = p.length := by simp; omega
      simp only [List.cons_append, start]
      rw [b1, if_neg (by omega), e, if_neg (by omega), if_neg (by omega), if_neg (by omega)]
      exact payload_ok h r

theorem start_more {op : Nat} {p b : List Byte} (h : Ok op p) (hb : b <+: frame op p) (hl : b.length < (frame op p).length) :
    start b = .more := by
  obtain ⟨b1, b2, b3⟩ := first_byte h
  have hp := h.len
  obtain ⟨r, hr⟩ := hb
  match b with
  | [] => rfl
  | [_] => rfl
  | c0 :: c1 :: b =>
    unfold frame at hr hl
    have ext : ∀ {w : Nat} {q : List Byte}, b ++ r = putBig w p.length ++ q → w ≤ b.length →
        b.take w = putBig w p.length ∧ b.drop w ++ r = q := by
      intro w q he hw
      have h1 := congrArg (List.take w) he
      have h2 := congrArg (List.drop w) he
      rw [List.take_append_of_le_length hw, List.take_left' (putBig_length _ _)] at h1
      rw [List.drop_append_of_le_length hw, List.drop_left' (putBig_length _ _)] at h2
      exact ⟨h1, h2⟩
    split at hr
    · next h1 =>
      rw [if_pos h1] at hl
      simp only [List.cons_append, List.cons.injEq] at hr
      obtain ⟨rfl, rfl, hr⟩ := hr
      simp only [start]
      rw [b1, if_neg (by omega), if_neg (by decide), if_neg (by decide), if_pos (by decide)]
      split
      · rfl
      · next h8 =>
        obtain ⟨e1, e2⟩ := ext hr (by omega)
        rw [e1, bigEndian_putBig 8 p.length (by omega), if_neg (by omega)]
        apply payload_more h
        simp only [List.length_cons, List.length_append, putBig_length, List.length_drop] at hl ⊢
        omega
    · next h1 =>
      rw [if_neg h1] at hl
      split at hr
      · next h2 =>
        rw [if_pos h2] at hl
        simp only [List.cons_append, List.cons.injEq] at hr
        obtain ⟨rfl, rfl, hr⟩ := hr
        simp only [start]
        rw [b1, if_neg (by omega), if_neg (by decide), if_pos (by decide)]
        split
        · rfl
        · next h8 =>
          obtain ⟨e1, e2⟩ := ext hr (by omega)
          rw [e1, bigEndian_putBig 2 p.length (by omega), if_neg (by omega)]
          apply payload_more h
          simp only [List.length_cons, List.length_append, putBig_length, List.length_drop] at hl ⊢
          omega
      · next h2 =>
        rw [if_neg h2] at hl
        simp only [List.cons_append, List.cons.injEq] at hr
        obtain ⟨rfl, rfl, hr⟩ := hr
        have e : (UInt8.ofNat p.length).toNat = p.length := by simp; omega
        simp only [start]
        rw [b1, if_neg (by omega), e, if_neg (by omega), if_neg (by omega), if_neg (by omega)]
        apply payload_more h
        simp only [List.length_cons] at hl
        omega

theorem frame_length (op : Nat) (p : List Byte) : 2 ≤ (frame op p).length := by
  unfold frame
  split
  · simp
  · split <;> simp

/-! ## The pump -/

/-- The opcode and payload of a round. -/
def parts : Wake → Nat × List Byte
  | .message m => (1, m)
  | .closed => (8, [])
  | .tick => (9, [])

theorem wake_frame (w : Wake) : w.frame = frame (parts w).1 (parts w).2 := by cases w <;> rfl

theorem wake_ok {w : Wake} (h : ∀ m, w = .message m → isText m = true ∧ m.length < 2 ^ 63) : Ok (parts w).1 (parts w).2 := by
  cases w with
  | message m => exact ⟨Or.inl rfl, (h m rfl).2⟩
  | closed => exact ⟨Or.inr ⟨Or.inl rfl, rfl⟩, by simp [parts]⟩
  | tick => exact ⟨Or.inr ⟨Or.inr rfl, rfl⟩, by simp [parts]⟩

/-- Reading one frame of the pump. -/
theorem receive_frame {w : Wake} (h : ∀ m, w = .message m → isText m = true ∧ m.length < 2 ^ 63) (k : Nat) (r : List Byte) :
    receive (k + 1) none (w.frame ++ r) =
      if w = .closed then ([said w], .closed) else (said w :: (receive k none r).1, (receive k none r).2) := by
  rw [wake_frame, receive, start_frame (wake_ok h)]
  cases w with
  | message m => simp [parts, said, message, (h m rfl).1]
  | closed => simp [parts, said]
  | tick => simp [parts, said]

theorem receive_part {w : Wake} (h : ∀ m, w = .message m → isText m = true ∧ m.length < 2 ^ 63) (k : Nat) {b : List Byte}
    (hb : b <+: w.frame) (hl : b.length < w.frame.length) : receive k none b = ([], .waiting) := by
  cases k with
  | zero => rfl
  | succ k =>
    rw [wake_frame] at hb hl
    rw [receive, start_more (wake_ok h) hb hl]

/-- What follows a frame. -/
def after (t : Turn) (ts : List Turn) : List Byte :=
  match t.wake, t.fault with
  | .closed, _ => []
  | _, some _ => []
  | _, none => writePump ts

theorem writePump_cons (t : Turn) (ts : List Turn) : writePump (t :: ts) = t.written ++ after t ts := by
  rw [writePump]; rfl

theorem after_nil {t : Turn} (h : t.wake = .closed ∨ t.fault ≠ none) (ts : List Turn) : after t ts = [] := by
  obtain ⟨w, f⟩ := t
  cases w <;> cases f <;> simp_all [after]

theorem after_eq {t : Turn} (h : t.wake ≠ .closed) (hf : t.fault = none) (ts : List Turn) : after t ts = writePump ts := by
  obtain ⟨w, f⟩ := t
  cases w <;> cases f <;> simp_all [after]

/-- The bytes that have arrived are a part of the frame, or the frame and bytes of what follows. -/
theorem split_arrived {t : Turn} {ts : List Turn} {b : List Byte} (hb : b <+: writePump (t :: ts)) :
    (b <+: t.wake.frame ∧ b.length < t.wake.frame.length) ∨ ∃ b', b = t.wake.frame ++ b' ∧ b' <+: after t ts := by
  rw [writePump_cons] at hb
  cases hf : t.fault with
  | none =>
    have hw : t.written = t.wake.frame := by unfold Turn.written; rw [hf]
    rw [hw] at hb
    by_cases hl : b.length < t.wake.frame.length
    · exact Or.inl ⟨List.prefix_of_prefix_length_le hb (List.prefix_append _ _) (by omega), hl⟩
    · right
      obtain ⟨b', rfl⟩ := List.prefix_of_prefix_length_le (List.prefix_append _ _) hb (by omega)
      exact ⟨b', rfl, (List.prefix_append_right_inj _).mp hb⟩
  | some k =>
    have hw : t.written = t.wake.frame.take k := by unfold Turn.written; rw [hf]
    rw [after_nil (Or.inr (by simp [hf])), List.append_nil, hw] at hb
    have hb' := hb.trans (List.take_prefix k _)
    by_cases hl : b.length < t.wake.frame.length
    · exact Or.inl ⟨hb', hl⟩
    · right
      refine ⟨[], ?_, List.nil_prefix⟩
      rw [List.append_nil]
      exact hb'.eq_of_length (by have := hb'.length_le; omega)

theorem clean_cons {t : Turn} {a : List Turn} (h : Clean (t :: a)) : t.fault = none ∧ Clean a ∧ (a ≠ [] → t.wake ≠ .closed) := by
  refine ⟨h.1 t (by simp), ⟨fun x hx => h.1 x (by simp [hx]), fun x hx => h.2 x ?_⟩, fun ha => h.2 t ?_⟩
  · cases a with
    | nil => cases hx
    | cons y a => rw [List.dropLast_cons_of_ne_nil (by simp)]; exact List.mem_cons_of_mem _ hx
  · rw [List.dropLast_cons_of_ne_nil ha]; simp

theorem key {ts : List Turn} (h : Sendable ts) : ∀ (k : Nat) (b : List Byte), b <+: writePump ts → b.length < k →
    (receive k none b).2 ≠ .failed ∧ (receive k none b).1 <+: ts.map (fun t => said t.wake) ∧
    (∀ a rest, ts = a ++ rest → Clean a → writePump a <+: b → a.map (fun t => said t.wake) <+: (receive k none b).1) ∧
    ((receive k none b).2 = .closed ↔ .close [] ∈ (receive k none b).1) := by
  induction ts with
  | nil =>
    intro k b hb hk
    have : b = [] := by simpa [writePump] using hb
    subst this
    cases k with
    | zero => cases hk
    | succ k =>
      refine ⟨by simp [receive, start], by simp [receive, start], ?_, by simp [receive, start]⟩
      intro a rest ha _ _
      have : a = [] := by
        cases a with
        | nil => rfl
        | cons x a => cases ha
      rw [this]; exact List.nil_prefix
  | cons t ts ih =>
    intro k b hb hk
    have hs : ∀ m, t.wake = .message m → isText m = true ∧ m.length < 2 ^ 63 := h t (by simp)
    have hs' : Sendable ts := fun x hx => h x (by simp [hx])
    have full : ∀ a, t.fault = none → (t.wake.frame <+: writePump (t :: a)) := by
      intro a hf
      rw [writePump_cons]
      unfold Turn.written
      rw [hf]
      exact List.prefix_append _ _
    rcases split_arrived hb with ⟨h1, h2⟩ | ⟨b', rfl, h1⟩
    · rw [receive_part hs k h1 h2]
      refine ⟨by simp, List.nil_prefix, ?_, by simp⟩
      intro a rest ha hc hp
      cases a with
      | nil => exact List.nil_prefix
      | cons x a =>
        obtain ⟨rfl, -⟩ := List.cons.inj ha
        have := ((full a (clean_cons hc).1).trans hp).length_le
        omega
    · cases k with
      | zero => cases hk
      | succ k =>
        have hfl : 2 ≤ t.wake.frame.length := by rw [wake_frame]; exact frame_length _ _
        rw [List.length_append] at hk
        rw [receive_frame hs]
        by_cases hcl : t.wake = .closed
        · rw [if_pos hcl]
          refine ⟨by simp, by simp, ?_, by simp [hcl, said]⟩
          intro a rest ha hc hp
          cases a with
          | nil => exact List.nil_prefix
          | cons x a =>
            obtain ⟨rfl, -⟩ := List.cons.inj ha
            have : a = [] := by
              by_cases ha : a = []
              · exact ha
              · exact absurd hcl ((clean_cons hc).2.2 ha)
            rw [this]
            exact List.prefix_refl _
        · rw [if_neg hcl]
          have hb' : b' <+: writePump ts := by
            by_cases hf : t.fault = none
            · rwa [after_eq hcl hf] at h1
            · rw [after_nil (Or.inr hf)] at h1
              rw [List.prefix_nil.mp h1]
              exact List.nil_prefix
          obtain ⟨i1, i2, i3, i4⟩ := ih hs' k b' hb' (by omega)
          refine ⟨i1, ?_, ?_, ?_⟩
          · rw [List.map_cons, List.prefix_cons_inj]; exact i2
          · intro a rest ha hc hp
            cases a with
            | nil => exact List.nil_prefix
            | cons x a =>
              obtain ⟨rfl, ha2⟩ := List.cons.inj ha
              obtain ⟨c1, c2, c3⟩ := clean_cons hc
              rw [List.map_cons, List.prefix_cons_inj]
              refine i3 a rest ha2 c2 ?_
              have hw : t.written = t.wake.frame := by unfold Turn.written; rw [c1]
              rw [writePump_cons, hw, after_eq hcl c1] at hp
              exact (List.prefix_append_right_inj _).mp hp
          · rw [i4]
            have : (Got.close [] : Got) ≠ said t.wake := by
              cases hw : t.wake with
              | closed => exact absurd hw hcl
              | _ => simp [said]
            simp [this]

/-- **C127** (what a client reads): whenever and wherever the bytes of a connection are cut, the client reads no frame that a server must not
send; what it takes notice of is, in order, an initial part of the messages, each whole and as a text, with a ping for every tick of the
clock between them and a close after the last; everything whose frame has arrived is there. -/
theorem C127_stream {ts : List Turn} (h : Sendable ts) {b : List Byte} (hb : b <+: writePump ts) :
    (client b).2 ≠ .failed ∧ (client b).1 <+: ts.map (fun t => said t.wake) ∧
    (∀ a rest, ts = a ++ rest → Clean a → writePump a <+: b → a.map (fun t => said t.wake) <+: (client b).1) ∧
    ((client b).2 = .closed ↔ .close [] ∈ (client b).1) :=
  key h _ b hb (by omega)

/-- The texts among what a client notices. -/
def texts (l : List Got) : List (List Byte) := l.filterMap fun g => match g with | .text m => some m | _ => none

/-- The messages a pump has taken from its channel. -/
def taken (ts : List Turn) : List (List Byte) := ts.filterMap fun t => match t.wake with | .message m => some m | _ => none

theorem texts_said (ts : List Turn) : texts (ts.map fun t => said t.wake) = taken ts := by
  unfold texts taken
  rw [List.filterMap_map]
  congr 1
  funext t
  simp only [Function.comp]
  cases t.wake <;> rfl

/-- **C127** (texts): the texts a client has are an initial part of the messages taken for it, and all of them once everything is
written and has arrived. -/
theorem C127_texts {ts : List Turn} (h : Sendable ts) {b : List Byte} (hb : b <+: writePump ts) :
    texts (client b).1 <+: taken ts ∧ (Clean ts → b = writePump ts → texts (client b).1 = taken ts) := by
  obtain ⟨_, h2, h3, _⟩ := C127_stream h hb
  rw [← texts_said]
  refine ⟨h2.filterMap _, fun hc he => ?_⟩
  have := h3 ts [] (by simp) hc (by rw [he]; exact List.prefix_refl _)
  rw [h2.eq_of_length_le this.length_le]

end Argo.Socket
