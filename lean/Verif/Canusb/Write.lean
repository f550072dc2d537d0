import Verif.Canusb.Props6

set_option autoImplicit false

/-!
# C116: Write of a CANUSB port

`(*CanPort).Write` for every buffer, including what is behind it in memory.
-/

namespace Argo.Canusb

open Argo

/-! ## Specification -/

/-- The message a buffer describes: priority, three bytes of PGN, destination, length, data. -/
def Describes (bytes : List Byte) (m : MsgView) : Prop :=
  ∃ pri p0 p1 p2 dst len rest, bytes = pri :: p0 :: p1 :: p2 :: dst :: len :: rest ∧ len.toNat ≤ rest.length ∧
    m = { priority := pri, pgn := p0.toNat % 16 * 65536 + p1.toNat * 256 + p2.toNat, source := 0, destination := dst,
          length := len, data := rest.take len.toNat }

/-! ## Proofs -/

theorem slice_six (b : Slice) (h : 6 ≤ b.vis.length) : ∃ pri p0 p1 p2 dst len tail,
    b = ⟨pri :: p0 :: p1 :: p2 :: dst :: len :: tail, b.spare⟩ := by
  obtain ⟨vis, spare⟩ := b
  match vis, h with
  | a :: b :: c :: d :: e :: f :: tail, _ => exact ⟨a, b, c, d, e, f, tail, rfl⟩

theorem end_eq (len : Byte) : (6 + len).toNat = if len.toNat < 250 then 6 + len.toNat else len.toNat - 250 := by
  rw [UInt8.toNat_add]
  have := len.toNat_lt
  have e : UInt8.toNat 6 = 6 := rfl
  rw [e]
  split <;> omega

theorem Write_cons (p : CanPort) (pri p0 p1 p2 dst len : Byte) (tail sp : List Byte) :
    Write p ⟨pri :: p0 :: p1 :: p2 :: dst :: len :: tail, sp⟩ =
      if 250 ≤ len.toNat ∨ tail.length + sp.length < len.toNat then .error .slice
      else if 8 < len.toNat then
        .ok ((0, some (.msg "does not support long writes")), p, ⟨pri :: p0 :: p1 :: p2 :: dst :: len :: tail, sp⟩)
      else .ok (p.port.script p.port.log.length,
          { p with port := { p.port with log := p.port.log ++
            [bodyText (pri <<< 2 + (p0 &&& 1)) p1 (if p1 < 240 then dst else p2) p.a ((tail ++ sp).take len.toNat) ++ [13]] } },
          ⟨pri :: p0 :: p1 :: (if p1 < 240 then dst else p2) :: dst :: len :: tail, sp⟩) := by
  have hs1 : Slice.sub ⟨pri :: p0 :: p1 :: p2 :: dst :: len :: tail, sp⟩ 1 4
      = .ok ⟨[p0, p1, p2], dst :: len :: (tail ++ sp)⟩ := by
    rw [Slice.sub_vis (by omega) (by simp)]; simp
  have h8 : (len > 8) ↔ 8 < len.toNat := by
    show 8 < len ↔ _
    rw [UInt8.lt_iff_toNat_lt]; rfl
  have hcap : Slice.cap ⟨pri :: p0 :: p1 :: p2 :: dst :: len :: tail, sp⟩ = 6 + tail.length + sp.length := by
    simp only [Slice.cap, List.length_cons]; omega
  simp only [Write, hs1, bind, Except.bind, Slice.get, List.getElem?_cons_zero, List.getElem?_cons_succ, end_eq]
  by_cases h : 250 ≤ len.toNat ∨ tail.length + sp.length < len.toNat
  · rw [if_pos h]
    have : ¬ (6 ≤ (if len.toNat < 250 then 6 + len.toNat else len.toNat - 250) ∧
        (if len.toNat < 250 then 6 + len.toNat else len.toNat - 250) ≤
          Slice.cap ⟨pri :: p0 :: p1 :: p2 :: dst :: len :: tail, sp⟩) := by
      rw [hcap]
      have := len.toNat_lt
      split <;> omega
    rw [show Slice.sub ⟨pri :: p0 :: p1 :: p2 :: dst :: len :: tail, sp⟩ 6
      (if len.toNat < 250 then 6 + len.toNat else len.toNat - 250) = .error .slice from if_neg this]
  · rw [if_neg h]
    have hlt : len.toNat < 250 := by omega
    rw [if_pos hlt]
    have hs2 : Slice.sub ⟨pri :: p0 :: p1 :: p2 :: dst :: len :: tail, sp⟩ 6 (6 + len.toNat) =
        .ok ⟨(tail ++ sp).take len.toNat, (tail ++ sp).drop len.toNat⟩ := by
      unfold Slice.sub
      rw [if_pos (by rw [hcap]; omega)]
      simp [Nat.add_comm 6]
    rw [hs2]
    simp only [h8]
    by_cases hl : 8 < len.toNat
    · rw [if_pos hl, if_pos hl]; rfl
    · rw [if_neg hl, if_neg hl]
      have hd : UInt8.ofNat ((tail ++ sp).take len.toNat).length = len := by
        rw [List.length_take, List.length_append, Nat.min_eq_left (by omega), UInt8.ofNat_toNat]
      simp only [Port.write, pure, Except.pure, bodyText, hd]
      by_cases hp : p1 < 240
      · simp [hp]
      · simp [hp]

/-- **C116** (panic): Write panics exactly if the buffer has less than six bytes, or announces 250 bytes or more, or more
than there are in memory behind the header. -/
theorem C116_panic (p : CanPort) (b : Slice) :
    (∃ e, Write p b = .error e) ↔
      b.vis.length < 6 ∨ ∃ len, b.vis[5]? = some len ∧ (250 ≤ len.toNat ∨ b.cap < 6 + len.toNat) := by
  by_cases h : 6 ≤ b.vis.length
  · obtain ⟨pri, p0, p1, p2, dst, len, tail, e⟩ := slice_six b h
    rw [e, Write_cons]
    simp only [Slice.cap, List.length_cons, List.getElem?_cons_succ, List.getElem?_cons_zero, Option.some.injEq,
      exists_eq_left']
    constructor
    · rintro ⟨x, hx⟩
      split at hx
      · right; omega
      · split at hx <;> cases hx
    · intro h'
      rw [if_pos (by omega)]
      exact ⟨_, rfl⟩
  · refine iff_of_true ?_ (Or.inl (by omega))
    have h5 : b.get 5 = .error .index := Slice.get_err (by omega)
    simp only [Write, bind, Except.bind, h5]
    cases b.get 0 with
    | error e => exact ⟨e, rfl⟩
    | ok _ =>
      cases b.sub 1 4 with
      | error e => exact ⟨e, rfl⟩
      | ok _ =>
        cases b.get 4 with
        | error e => exact ⟨e, rfl⟩
        | ok _ => exact ⟨_, rfl⟩

/-- **C116** (long): a buffer that announces more than eight bytes is refused, nothing is written and it stays as it is. -/
theorem C116_long (p : CanPort) (b : Slice) (len : Byte) (h : b.vis[5]? = some len) (h8 : 8 < len.toNat)
    (h250 : len.toNat < 250) (hcap : 6 + len.toNat ≤ b.cap) : ∃ e, Write p b = .ok ((0, some e), p, b) := by
  have h6 : 6 ≤ b.vis.length := (List.getElem?_eq_some_iff.mp h).1
  obtain ⟨pri, p0, p1, p2, dst, len', tail, e⟩ := slice_six b h6
  rw [e] at h hcap ⊢
  simp only [List.getElem?_cons_succ, List.getElem?_cons_zero, Option.some.injEq] at h
  subst h
  simp only [Slice.cap, List.length_cons] at hcap
  rw [Write_cons, if_neg (by omega), if_pos h8]
  exact ⟨_, rfl⟩

theorem bodyText_no_cr {b0 b1 b2 a : Byte} {data : List Byte} (h8 : data.length ≤ 8) : 13 ∉ bodyText b0 b1 b2 a data := by
  intro hm
  have hc : ∀ d, d < 16 → hexChar d ≠ 13 := by
    intro d hd e
    have := hexChar_digit d hd
    rw [e] at this
    rcases this with ⟨_, h⟩ | ⟨_, _, h | h⟩ <;> simp at h <;> omega
  have hx : ∀ b : Byte, 13 ∉ hex2 b := by
    intro b hb
    have := b.toNat_lt
    simp only [hex2, List.mem_cons, List.not_mem_nil, or_false] at hb
    rcases hb with h | h
    · exact hc _ (by omega) h.symm
    · exact hc _ (by omega) h.symm
  have h1 : ∀ n : Nat, n ≤ 8 → 13 ∉ hex1 (UInt8.ofNat n) := by decide +revert
  simp only [bodyText, List.mem_cons, List.mem_append, List.mem_flatMap] at hm
  rcases hm with h | ((((h | h) | h) | h) | h) | ⟨b, _, h⟩
  · cases h
  · exact hx _ h
  · exact hx _ h
  · exact hx _ h
  · exact hx _ h
  · exact h1 _ h8 h
  · exact hx _ h

/-- **C116** (frame): a buffer that describes a message of at most eight bytes is written as one line, which is received as
this message (C17, C18) from the port's address; the result is that of the serial port.  The bytes of the message are those
in memory, within the buffer or behind it. -/
theorem C116_frame (p : CanPort) (b : Slice) (m : MsgView) (h6 : 6 ≤ b.vis.length) (hm : Describes (b.vis ++ b.spare) m)
    (h8 : m.length.toNat ≤ 8) :
    ∃ text b', Write p b = .ok (p.port.script p.port.log.length,
        { p with port := { p.port with log := p.port.log ++ [text ++ [13]] } }, b') ∧
      13 ∉ text ∧ text.length = 10 + 2 * m.data.length ∧
      ∀ ts sp, ts.length = 4 → parsed ⟨text ++ ts, sp⟩ = .frame (asReceived p.a m) := by
  obtain ⟨pri, p0, p1, p2, dst, len, tail, e⟩ := slice_six b h6
  obtain ⟨_, _, _, _, _, _, rest, hb, hlen, rfl⟩ := hm
  rw [e] at hb
  simp only [List.cons_append, List.cons.injEq] at hb
  obtain ⟨rfl, rfl, rfl, rfl, rfl, rfl, rfl⟩ := hb
  have hl : len.toNat ≤ tail.length + b.spare.length := by simpa using hlen
  simp only at h8
  have hdl : ((tail ++ b.spare).take len.toNat).length = len.toNat := by
    rw [List.length_take, List.length_append]; omega
  rw [e, Write_cons, if_neg (by omega), if_neg (by omega)]
  refine ⟨_, _, rfl, bodyText_no_cr (by omega), ?_, ?_⟩
  · have h1 : ∀ n : Nat, n ≤ 8 → (hex1 (UInt8.ofNat n)).length = 1 := by decide +revert
    have hf : ∀ l : List Byte, (l.flatMap hex2).length = 2 * l.length := by
      intro l
      induction l with
      | nil => rfl
      | cons x l ih => rw [List.flatMap_cons, List.length_append, ih]; simp only [hex2, List.length_cons, List.length_nil]; omega
    have hx : ∀ x, (hex2 x).length = 2 := fun _ => rfl
    simp only [bodyText, List.length_cons, List.length_append, hf, hx, hdl, h1 _ h8]
    omega
  · intro ts sp hts
    refine (C15_accepts _ _ _).2 ⟨_, _, bodyText_lawicel _ _ _ p.a _ ts (by omega) hts, ?_⟩
    have h0 : p0.toNat < 256 := p0.toNat_lt
    have h1 : p1.toNat < 256 := p1.toNat_lt
    have h2 : p2.toNat < 256 := p2.toNat_lt
    obtain ⟨pgn, hpgn⟩ : ∃ n, n = p0.toNat % 16 * 65536 + p1.toNat * 256 + p2.toNat := ⟨_, rfl⟩
    rw [← hpgn]
    have e0 : (UInt8.ofNat ((pgn &&& 0xf0000) >>> 16) &&& 1) = p0 &&& 1 := by
      apply UInt8.toNat_inj.mp
      rw [UInt8.toNat_and, UInt8.toNat_ofNat', UInt8.toNat_and]
      have : (pgn &&& 0xf0000) >>> 16 = pgn / 65536 % 16 := by
        rw [Nat.shiftRight_and_distrib, Nat.shiftRight_eq_div_pow]
        exact Nat.and_two_pow_sub_one_eq_mod _ 4
      rw [this]
      have a1 : (pgn / 65536 % 16 % 2 ^ 8) &&& UInt8.toNat 1 = pgn / 65536 % 16 % 2 ^ 8 % 2 :=
        Nat.and_two_pow_sub_one_eq_mod _ 1
      have a2 : p0.toNat &&& UInt8.toNat 1 = p0.toNat % 2 := Nat.and_two_pow_sub_one_eq_mod _ 1
      rw [a1, a2]; omega
    have e1 : UInt8.ofNat ((pgn &&& 0xff00) >>> 8) = p1 := by
      apply UInt8.toNat_inj.mp
      have : (pgn &&& 0xff00) >>> 8 = pgn / 256 % 256 := by
        rw [Nat.shiftRight_and_distrib, Nat.shiftRight_eq_div_pow]
        exact Nat.and_two_pow_sub_one_eq_mod _ 8
      rw [this, UInt8.toNat_ofNat']; omega
    have e2 : UInt8.ofNat pgn = p2 := by
      apply UInt8.toNat_inj.mp
      rw [UInt8.toNat_ofNat']; omega
    have := sent_decoded pri p.a dst pgn ((tail ++ b.spare).take len.toNat)
    simp only [e0, e1, e2] at this
    rw [this]
    simp only [asReceived, hdl, UInt8.ofNat_toNat, hdl]
    congr 1
    rw [List.take_take, Nat.min_self]

/-- **C116** (buffer): after a write the fourth byte of the caller's buffer is the destination if the PGN is destination
specific, and nothing else of it has changed. -/
theorem C116_buffer (p p' : CanPort) (b b' : Slice) (r : Nat × Option Err) (h : Write p b = .ok (r, p', b')) :
    b'.spare = b.spare ∧ b'.vis.length = b.vis.length ∧
    ∀ (i : Nat), b'.vis[i]? = b.vis[i]? ∨
      (i = 3 ∧ b'.vis[3]? = b.vis[4]? ∧ (∃ p1, b.vis[2]? = some p1 ∧ p1 < 240) ∧ ∃ len, b.vis[5]? = some len ∧ len.toNat ≤ 8) := by
  have h6 : 6 ≤ b.vis.length := by
    refine Decidable.byContradiction fun hc => ?_
    obtain ⟨e, he⟩ := (C116_panic p b).mpr (Or.inl (by omega))
    rw [h] at he; cases he
  obtain ⟨pri, p0, p1, p2, dst, len, tail, e⟩ := slice_six b h6
  rw [e, Write_cons] at h
  rw [e]
  split at h
  · cases h
  · split at h
    · cases h; exact ⟨rfl, rfl, fun i => Or.inl rfl⟩
    · rename_i h8
      cases h
      refine ⟨rfl, rfl, fun i => ?_⟩
      match i with
      | 0 | 1 | 2 => exact Or.inl rfl
      | 3 =>
        by_cases hp : p1 < 240
        · refine Or.inr ⟨rfl, by simp [hp], ⟨p1, rfl, hp⟩, len, rfl, by omega⟩
        · exact Or.inl (by simp [hp])
      | i + 4 => exact Or.inl rfl

/-! ## What io.Writer asks -/

/-- **C116** is false (io.Writer: "Write must not modify the slice data"): for every port and every buffer with a
destination-specific PGN whose low byte is not already the destination, Write changes the buffer. -/
theorem C116_modifies_false (p : CanPort) (pri p0 p1 p2 dst len : Byte) (data sp : List Byte) (hp : p1 < 240)
    (hne : p2 ≠ dst) (hl : len.toNat = data.length) (h8 : data.length ≤ 8) :
    ∃ r p' b', Write p ⟨pri :: p0 :: p1 :: p2 :: dst :: len :: data, sp⟩ = .ok (r, p', b') ∧
      b'.vis ≠ pri :: p0 :: p1 :: p2 :: dst :: len :: data := by
  rw [Write_cons, if_neg (by omega), if_neg (by omega)]
  refine ⟨_, _, _, rfl, ?_⟩
  simp only [hp, if_true, ne_eq, List.cons.injEq, true_and, and_true]
  exact fun h => hne h.symm

/-- **C116** is false (io.Writer: the number of bytes written from the buffer): when the serial port takes the whole line,
the number returned is that of the characters of the line, never that of the bytes of the buffer. -/
theorem C116_count_false (p : CanPort) (b : Slice) (m : MsgView) (h6 : b.vis.length = 6 + m.length.toNat)
    (hm : Describes b.vis m) (h8 : m.length.toNat ≤ 8)
    (hport : p.port.script p.port.log.length = (11 + 2 * m.length.toNat, none)) :
    ∃ n p' b', Write p b = .ok ((n, none), p', b') ∧ n = 11 + 2 * m.length.toNat ∧ n ≠ b.vis.length := by
  have hd : m.data.length = m.length.toNat := by
    obtain ⟨_, _, _, _, _, len, rest, _, h, rfl⟩ := hm
    simp only [List.length_take]; omega
  obtain ⟨text, b', hw, _, hl, _⟩ := C116_frame p b m (by omega) (by
    obtain ⟨a1, a2, a3, a4, a5, len, rest, hb, h, rfl⟩ := hm
    refine ⟨a1, a2, a3, a4, a5, len, rest ++ b.spare, by rw [hb]; rfl, by simp; omega, ?_⟩
    rw [List.take_append_of_le_length h]) h8
  rw [hport] at hw
  exact ⟨_, _, _, hw, rfl, by omega⟩

/-! ## Examples -/

/-- A request (PGN 59904) to address 35 with a buffer as `Send` fills it, and the memory behind a short buffer. -/
example : Describes [6, 0, 0xea, 0, 35, 3, 0x14, 0xf0, 0x01] ⟨6, 59904, 0, 35, 3, [0x14, 0xf0, 0x01]⟩ :=
  ⟨6, 0, 0xea, 0, 35, 3, [0x14, 0xf0, 0x01], rfl, by decide, by decide⟩

example (p : CanPort) : ∃ e, Write p ⟨[6, 0, 0xea, 0, 35, 252, 1, 2, 3], []⟩ = .error e :=
  (C116_panic p _).mpr (Or.inr ⟨252, rfl, Or.inl (by decide)⟩)

/-- Memory behind the buffer goes out on the bus. -/
example (p : CanPort) : ∃ text b', Write p ⟨[6, 0, 0xea, 0, 35, 3], [1, 2, 3]⟩ = .ok (p.port.script p.port.log.length,
        { p with port := { p.port with log := p.port.log ++ [text ++ [13]] } }, b') ∧
      ∀ ts sp, ts.length = 4 → parsed ⟨text ++ ts, sp⟩ = .frame ⟨6, 59904, p.a, 35, 3, [1, 2, 3]⟩ := by
  obtain ⟨text, b', h1, _, _, h2⟩ := C116_frame p ⟨[6, 0, 0xea, 0, 35, 3], [1, 2, 3]⟩ ⟨6, 59904, 0, 35, 3, [1, 2, 3]⟩
    (by decide) ⟨6, 0, 0xea, 0, 35, 3, [1, 2, 3], rfl, by decide, by decide⟩ (by decide)
  exact ⟨text, b', h1, fun ts sp h => (h2 ts sp h).trans (by rfl)⟩

end Argo.Canusb
