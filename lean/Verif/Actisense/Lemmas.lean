import Verif.Actisense.Model
import Verif.Actisense.Spec

set_option autoImplicit false

/-! Helper lemmas for package actisense. -/

namespace Argo.Actisense
open NgtSpec

theorem foldl_total (l : List Byte) (a : Byte) :
    l.foldl (fun acc c => acc + c) a = a + total l := by
  induction l generalizing a with
  | nil => simp [total]
  | cons b l ih => simp only [List.foldl_cons, total, ih]; grind

theorem total_append (a b : List Byte) : total (a ++ b) = total a + total b := by
  induction a with
  | nil => simp [total]
  | cons x a ih => simp only [List.cons_append, total, ih]; grind

theorem byte_lt (b c : Byte) : b < c ↔ b.toNat < c.toNat := UInt8.lt_iff_toNat_lt

theorem escape_nil : escape [] = [] := rfl
theorem escape_cons (b : Byte) (l : List Byte) :
    escape (b :: l) = (if b = 0x10 then [0x10, 0x10] else [b]) ++ escape l := rfl
theorem escape_append (a b : List Byte) : escape (a ++ b) = escape a ++ escape b := by
  simp [escape]

theorem writeStep_foldl (l : List Byte) (bst : List Byte) (crc : Byte) :
    l.foldl writeStep (bst, crc) = (bst ++ escape l, crc + total l) := by
  induction l generalizing bst crc with
  | nil => simp [escape, total]
  | cons b l ih =>
    rw [List.foldl_cons]
    simp only [writeStep, DLE]
    rw [ih, escape_cons]
    by_cases h : b = 0x10
    · simp [h, total]; grind
    · simp [h, total]; grind

theorem ofNat_256_sub (c : Byte) : UInt8.ofNat (256 - c.toNat) = -c := by
  apply UInt8.toNat.inj
  rw [UInt8.toNat_ofNat', UInt8.toNat_neg]

theorem or_shift (a b c : Byte) :
    a.toNat ||| (b.toNat <<< 8) ||| (c.toNat <<< 16)
      = a.toNat + 256 * b.toNat + 65536 * c.toNat := by
  have ha := a.toNat_lt
  have hb := b.toNat_lt
  have h1 : a.toNat ||| (b.toNat <<< 8) = b.toNat <<< 8 + a.toNat := by
    rw [Nat.or_comm, Nat.shiftLeft_add_eq_or_of_lt (by simpa using ha)]
  have h2 : b.toNat <<< 8 + a.toNat < 2 ^ 16 := by
    rw [Nat.shiftLeft_eq]; omega
  rw [h1, Nat.or_comm, ← Nat.shiftLeft_add_eq_or_of_lt h2, Nat.shiftLeft_eq, Nat.shiftLeft_eq]
  omega

theorem from1 {x : Byte} {l sp : List Byte} :
    (Slice.from' ⟨x :: l, sp⟩ 1) = .ok ⟨l, sp⟩ := by
  simp [Slice.from', Slice.sub, Slice.len, Slice.cap]

theorem n2k_verdict (l sp : List Byte) :
    match n2kVerdict l with
    | .accept d => ∃ m, n2kMessageReceived ⟨l, sp⟩ = .ok (.ok m) ∧ m.view = d
    | .reject => ∃ e, n2kMessageReceived ⟨l, sp⟩ = .ok (.error e)
    | .crash => ∃ e, n2kMessageReceived ⟨l, sp⟩ = .error e
    | .overrun => False := by
  match l with
  | [] => exact ⟨.index, rfl⟩
  | len :: rest =>
    by_cases h : len.toNat < 11
    · have h' : len < 11 := (byte_lt _ _).2 h
      simp only [n2kVerdict, h, if_true]
      exact ⟨.msg "ignore short msg", by simp [n2kMessageReceived, Slice.get, h', bind, Except.bind, pure, Except.pure]⟩
    · have h' : ¬ len < 11 := fun hh => h ((byte_lt _ _).1 hh)
      match rest with
      | [] | [_] | [_, _] | [_, _, _] | [_, _, _, _] | [_, _, _, _, _] | [_, _, _, _, _, _]
      | [_, _, _, _, _, _, _] | [_, _, _, _, _, _, _, _] | [_, _, _, _, _, _, _, _, _]
      | [_, _, _, _, _, _, _, _, _, _] =>
        simp only [n2kVerdict, h, if_false]
        exact ⟨.index, by simp [n2kMessageReceived, Slice.get, h', bind, Except.bind]⟩
      | prio :: p0 :: p1 :: p2 :: dst :: src :: t0 :: t1 :: t2 :: t3 :: n :: tail =>
        simp only [n2kVerdict, h, if_false]
        by_cases hn : n.toNat ≤ 223
        · have hn' : ¬ n > 223 := by
            intro hh; have := (byte_lt _ _).1 hh; simp at this; omega
          have h12 : (n + 12).toNat = n.toNat + 12 := by
            rw [UInt8.toNat_add]; simp; omega
          by_cases ht : n.toNat ≤ tail.length
          · have hlen : ¬ (tail.length + 12 < n.toNat + 12) := by omega
            simp only [hn, ht, and_self, if_true]
            simp [n2kMessageReceived, Slice.get, h', hn', bind, Except.bind, Slice.len, h12,
              Slice.sub, Slice.cap, hlen, pure, Except.pure, RawMessage.view]
            rw [if_pos (by omega)]
            exact ⟨_, rfl, by simp [or_shift, List.take_append_of_le_length ht]⟩
          · have hlen : (tail.length + 12 < n.toNat + 12) := by omega
            simp only [ht, and_false, if_false]
            simp [n2kMessageReceived, Slice.get, h', hn', bind, Except.bind, Slice.len, h12,
              hlen, pure, Except.pure]
        · have hn' : n > 223 := by
            refine (byte_lt _ _).2 ?_; simp; omega
          simp only [hn, false_and, if_false]
          simp [n2kMessageReceived, Slice.get, h', hn', bind, Except.bind, pure, Except.pure]

theorem ngt_verdict (l sp : List Byte) (h2 : 2 ≤ l.length) :
    match ngtVerdict l with
    | .accept d => ∃ m, ngtMessageReceived ⟨l, sp⟩ = .ok (.ok m) ∧ m.view = d
    | .reject => ∃ e, ngtMessageReceived ⟨l, sp⟩ = .ok (.error e)
    | .crash => ∃ e, ngtMessageReceived ⟨l, sp⟩ = .error e
    | .overrun => ∃ len id tail, l = len :: id :: tail ∧
        if len.toNat + 1 ≤ l.length + sp.length then
          ∃ m, ngtMessageReceived ⟨l, sp⟩ = .ok (.ok m) ∧
            m.view = { priority := 0, pgn := 0x40000 + id.toNat, source := 0, destination := 0
                       length := UInt8.ofNat (len.toNat - 1)
                       data := (tail ++ sp).take (len.toNat - 1) }
        else ngtMessageReceived ⟨l, sp⟩ = .error .slice := by
  match l, h2 with
  | len :: id :: tail, _ =>
    by_cases h : len.toNat < 12
    · have h' : len < 12 := (byte_lt _ _).2 h
      simp only [ngtVerdict, h, if_true]
      exact ⟨.msg "ignore short msg", by
        simp [ngtMessageReceived, Slice.get, h', bind, Except.bind, pure, Except.pure]⟩
    · have h' : ¬ len < 12 := fun hh => h ((byte_lt _ _).1 hh)
      have hsub : len - 1 = UInt8.ofNat (len.toNat - 1) := by
        apply UInt8.toNat.inj
        have := len.toNat_lt
        rw [UInt8.toNat_sub, UInt8.toNat_ofNat']; simp; omega
      by_cases h255 : len.toNat = 255
      · have h1 : (len + 1).toNat = 0 := by rw [UInt8.toNat_add, h255]; rfl
        simp only [ngtVerdict, h, if_false, h255, if_true]
        refine ⟨.slice, ?_⟩
        simp [ngtMessageReceived, Slice.get, h', bind, Except.bind, Slice.sub, h1]
      · have h1 : (len + 1).toNat = len.toNat + 1 := by
          have := len.toNat_lt
          rw [UInt8.toNat_add]; simp; omega
        have h2 : 2 ≤ len.toNat + 1 := by omega
        have e2 : len.toNat = (len.toNat - 1) + 1 := by omega
        have e3 : ∀ r : List Byte, (List.take len.toNat (id :: r)).tail = r.take (len.toNat - 1) := by
          intro r; rw [e2]; rfl
        by_cases ht : len.toNat - 1 ≤ tail.length
        · simp only [ngtVerdict, h, if_false, h255, ht, if_true]
          simp [ngtMessageReceived, Slice.get, h', bind, Except.bind, Slice.sub, h1, Slice.cap,
            pure, Except.pure, RawMessage.view]
          rw [if_pos (by omega)]
          refine ⟨_, rfl, rfl, rfl, rfl, rfl, hsub, ?_⟩
          simp only [e3, List.take_append_of_le_length ht]
        · simp only [ngtVerdict, h, if_false, h255, ht]
          refine ⟨len, id, tail, rfl, ?_⟩
          split
          · rename_i hc
            simp only [List.length_cons] at hc
            simp [ngtMessageReceived, Slice.get, h', bind, Except.bind, Slice.sub, h1, Slice.cap,
              pure, Except.pure, RawMessage.view]
            rw [if_pos (by omega)]
            refine ⟨_, rfl, rfl, rfl, rfl, rfl, hsub, ?_⟩
            simp only [e3]
          · rename_i hc
            simp only [List.length_cons] at hc
            simp [ngtMessageReceived, Slice.get, h', bind, Except.bind, Slice.sub, h1, Slice.cap]
            rw [if_neg (by omega)]

/-- `messageReceived` agrees with the protocol verdict on the visible bytes. -/
theorem message_verdict (s : Slice) :
    match verdict s.vis with
    | .accept d => ∃ m, messageReceived s = .ok (.ok m) ∧ m.view = d
    | .reject => ∃ e, messageReceived s = .ok (.error e)
    | .crash => ∃ e, messageReceived s = .error e
    | .overrun => ∃ len id tail, s.vis = 0xA0 :: len :: id :: tail ∧
        if len.toNat + 2 ≤ s.cap then
          ∃ m, messageReceived s = .ok (.ok m) ∧
            m.view = { priority := 0, pgn := 0x40000 + id.toNat, source := 0, destination := 0
                       length := UInt8.ofNat (len.toNat - 1)
                       data := (tail ++ s.spare).take (len.toNat - 1) }
        else messageReceived s = .error .slice := by
  obtain ⟨l, sp⟩ := s
  by_cases h3 : l.length < 3
  · simp only [verdict, h3, if_true]
    exact ⟨_, by simp [messageReceived, Slice.len, h3]; rfl⟩
  · by_cases ht : total l = 0
    · have hb : (List.foldl (fun acc c => acc + c) 0 l != (0 : Byte)) = false := by
        rw [foldl_total, ht]; rfl
      match l, h3 with
      | c :: l', h3 =>
        have hl' : 2 ≤ l'.length := by simp at h3; omega
        have hm : messageReceived ⟨c :: l', sp⟩ =
            if c == N2kMsgRecv then n2kMessageReceived ⟨l', sp⟩
            else if c == ACmdRecv then ngtMessageReceived ⟨l', sp⟩
            else .ok (.error (.msg "unknown message type received")) := by
          simp only [messageReceived, Slice.len, h3, if_false, hb, Slice.get, from1, bind, Except.bind,
            pure, Except.pure]
          simp
        rw [hm]
        simp only [verdict, h3, if_false, ht, ne_eq, not_true_eq_false, List.head?_cons,
          List.tail_cons, Option.some.injEq]
        by_cases h93 : c = 0x93
        · have hb : (c == N2kMsgRecv) = true := by rw [h93]; rfl
          simp only [hb, if_true, if_pos h93]
          have := n2k_verdict l' sp
          revert this
          cases n2kVerdict l' <;> simp
        · have hb : (c == N2kMsgRecv) = false := by simpa [N2kMsgRecv] using h93
          by_cases hA0 : c = 0xA0
          · have hb2 : (c == ACmdRecv) = true := by rw [hA0]; rfl
            simp only [hb, hb2, if_true, if_neg h93, if_pos hA0, Bool.false_eq_true, if_false]
            have := ngt_verdict l' sp hl'
            revert this
            cases ngtVerdict l' <;> simp only [imp_self]
            rintro ⟨len, id, tail, rfl, h⟩
            refine ⟨len, id, tail, by rw [hA0], ?_⟩
            simp only [List.length_cons] at h
            have hcap : Slice.cap ⟨c :: len :: id :: tail, sp⟩ = tail.length + 3 + sp.length := by
              simp [Slice.cap]
            split at h
            · rw [if_pos (by rw [hcap]; omega)]; exact h
            · rw [if_neg (by rw [hcap]; omega)]; exact h
          · have hb2 : (c == ACmdRecv) = false := by simpa [ACmdRecv] using hA0
            simp only [hb, hb2, if_neg h93, if_neg hA0, Bool.false_eq_true, if_false]
            exact ⟨_, rfl⟩
    · have hb : (List.foldl (fun acc c => acc + c) 0 l != (0 : Byte)) = true := by
        rw [foldl_total]; simpa using ht
      simp only [verdict, h3, if_false, ne_eq, ht, not_false_eq_true, if_true]
      exact ⟨.msg "ignoring message with invalid checksum", by
        simp only [messageReceived, Slice.len, h3, if_false, hb, if_true]; rfl⟩

/-! ### The byte machine -/

/-- `append` of several bytes one at a time. -/
def pushAll (g : Nat → Nat) (s : Slice) (bs : List Byte) : Slice := bs.foldl (fun s b => s.push g b) s

@[simp] theorem pushAll_vis (g : Nat → Nat) (s : Slice) (bs : List Byte) :
    (pushAll g s bs).vis = s.vis ++ bs := by
  induction bs generalizing s with
  | nil => simp [pushAll]
  | cons b bs ih =>
    have := ih (s.push g b)
    simp only [pushAll, List.foldl_cons] at this ⊢
    rw [this]; simp

theorem pushAll_append (g : Nat → Nat) (s : Slice) (a b : List Byte) :
    pushAll g s (a ++ b) = pushAll g (pushAll g s a) b := by
  simp [pushAll]

theorem session_append (g : Nat → Nat) (s : RState) (a b : List Ev) :
    session g s (a ++ b) =
      match (session g s a).2 with
      | none => session g s a
      | some s' => ((session g s a).1 ++ (session g s' b).1, (session g s' b).2) := by
  induction a generalizing s with
  | nil => simp [session]
  | cons e a ih =>
    cases e with
    | fail =>
      simp only [List.cons_append, session]
      rw [ih]
      cases h : (session g RState.init a).2 <;> simp [← h]
    | byte c =>
      simp only [List.cons_append, session]
      split
      · rw [ih]
      · rw [ih]
        cases h : (session g RState.init a).2 <;> simp [← h]
      · rfl
    | empty =>
      simp only [List.cons_append, session]
      split
      · rw [ih]
      · rw [ih]
        cases h : (session g RState.init a).2 <;> simp [← h]
      · rfl

/-- What `Read` does when `messageReceived` has returned, and afterwards. -/
def finish (g : Nat → Nat) (r : GoM (Except Err RawMessage)) (evs : List Ev) :
    List Obs × Option RState :=
  match r with
  | .error e => ([.crash e], none)
  | .ok (.ok m) => (.msg m :: (session g RState.init evs).1, (session g RState.init evs).2)
  | .ok (.error _) => session g ⟨Slice.nil, ETX, .MsgStart⟩ evs

/-- The buffer in effect once `DLE STX` has been consumed. -/
def opened (g : Nat → Nat) (s : RState) : Slice :=
  match s.state with
  | .MsgEscape => pushAll g s.buf [DLE, STX]
  | _ => s.buf

theorem session_escape (g : Nat → Nat) (buf : Slice) (rx : Byte) (c : List Byte) (evs : List Ev) :
    ∃ rx', session g ⟨buf, rx, .MsgMessage⟩ ((escape c).map Ev.byte ++ evs)
      = session g ⟨pushAll g buf c, rx', .MsgMessage⟩ evs := by
  induction c generalizing buf rx with
  | nil => exact ⟨rx, rfl⟩
  | cons b c ih =>
    rw [escape_cons]
    by_cases h : b = 0x10
    · subst h
      obtain ⟨rx', h'⟩ := ih (buf.push g 0x10) 0x10
      refine ⟨rx', ?_⟩
      simp [session, byteStep, DLE, ETX, STX, h', pushAll]
    · obtain ⟨rx', h'⟩ := ih (buf.push g b) b
      refine ⟨rx', ?_⟩
      simp [session, byteStep, DLE, h, h', pushAll]

theorem session_wire (g : Nat → Nat) (s : RState) (c : List Byte) (evs : List Ev) :
    session g s ((wire c).map Ev.byte ++ evs)
      = finish g (messageReceived (pushAll g (opened g s) c)) evs := by
  obtain ⟨buf, rx, st⟩ := s
  have key : ∀ b r, session g ⟨b, r, .MsgMessage⟩
      ((escape c ++ [0x10, 0x03]).map Ev.byte ++ evs)
      = finish g (messageReceived (pushAll g b c)) evs := by
    intro b r
    obtain ⟨rx', h⟩ := session_escape g b r c ([0x10, 0x03].map Ev.byte ++ evs)
    rw [List.map_append, List.append_assoc, h]
    simp only [List.map_cons, List.map_nil, List.cons_append, List.nil_append, session, byteStep, DLE,
      ETX, beq_self_eq_true, if_true, finish]
    cases h : messageReceived (pushAll g b c) with
    | error e => rfl
    | ok r => cases r <;> rfl
  cases st <;>
    simp only [wire, List.cons_append, List.nil_append, List.map_cons, session, byteStep, DLE, STX, ETX,
      beq_self_eq_true, if_true, opened, pushAll, List.foldl_cons, List.foldl_nil] <;>
    exact key _ _

/-- Bytes that are not DLE leave a clean reader clean. -/
theorem session_noise (g : Nat → Nat) (rx : Byte) (n : List Byte) (h : 0x10 ∉ n) (evs : List Ev) :
    ∃ rx', session g ⟨Slice.nil, rx, .MsgStart⟩ (n.map Ev.byte ++ evs)
      = session g ⟨Slice.nil, rx', .MsgStart⟩ evs := by
  induction n generalizing rx with
  | nil => exact ⟨rx, rfl⟩
  | cons b n ih =>
    simp only [List.mem_cons, not_or] at h
    obtain ⟨rx', h'⟩ := ih b h.2
    refine ⟨rx', ?_⟩
    have : ¬ b = 0x10 := fun hh => h.1 hh.symm
    simp [session, byteStep, DLE, this, h']

end Argo.Actisense
