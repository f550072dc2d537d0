set_option autoImplicit false

/-!
# Go semantics used by the model

Panics, slices with capacity, and the byte type.  This file models the Go language
specification (slice expressions, indexing, append), not a file of /repo.
-/

namespace Argo

/-- A Go byte (`uint8`): arithmetic wraps modulo 256. -/
abbrev Byte := UInt8

/-- Run-time panics a modelled Go function can raise. -/
inductive Panic where
  /-- index out of range -/
  | index
  /-- slice bounds out of range -/
  | slice
  /-- failed type assertion -/
  | typeAssert
  /-- integer divide by zero -/
  | divZero
  /-- close of closed channel -/
  | closeClosed
  /-- send on closed channel -/
  | sendClosed
  /-- method call on a nil interface -/
  | nilCall
  deriving DecidableEq, Repr

/-- A Go computation that returns a value or panics. -/
abbrev GoM (α : Type) := Except Panic α

/-- Go `[]byte`: the visible bytes (`len`) and the bytes between `len` and `cap`. -/
structure Slice where
  /-- the visible bytes, `s[0:len(s)]` -/
  vis : List Byte
  /-- the contents of the backing array between `len(s)` and `cap(s)` -/
  spare : List Byte
  deriving DecidableEq, Repr, Inhabited

namespace Slice

/-- Go nil slice: length 0, capacity 0. -/
def nil : Slice := ⟨[], []⟩

/-- Go `len(s)`. -/
def len (s : Slice) : Nat := s.vis.length

/-- Go `cap(s)`. -/
def cap (s : Slice) : Nat := s.vis.length + s.spare.length

/-- Go `s[i]` (read): panics when `i >= len(s)`. -/
def get (s : Slice) (i : Nat) : GoM Byte :=
  match s.vis[i]? with
  | some b => .ok b
  | none => .error .index

/-- Go `s[lo:hi]`: legal iff `lo <= hi <= cap(s)`; it can expose bytes beyond `len(s)`. -/
def sub (s : Slice) (lo hi : Nat) : GoM Slice :=
  if lo ≤ hi ∧ hi ≤ s.cap then
    .ok ⟨((s.vis ++ s.spare).take hi).drop lo, (s.vis ++ s.spare).drop hi⟩
  else .error .slice

/-- Go `s[lo:]` = `s[lo:len(s)]`. -/
def from' (s : Slice) (lo : Nat) : GoM Slice := s.sub lo s.len

/-- Go `append(s, b)`.  When the capacity is exhausted the runtime allocates a new array; `g`
gives the slack (cap - len) it chooses for a given new length, and the slack is zeroed. -/
def push (g : Nat → Nat) (s : Slice) (b : Byte) : Slice :=
  match s.spare with
  | _ :: rest => ⟨s.vis ++ [b], rest⟩
  | [] => ⟨s.vis ++ [b], List.replicate (g (s.vis.length + 1)) 0⟩

@[simp] theorem push_vis (g : Nat → Nat) (s : Slice) (b : Byte) :
    (s.push g b).vis = s.vis ++ [b] := by
  unfold push; split <;> rfl

@[simp] theorem nil_vis : (nil).vis = [] := rfl

theorem get_ok {s : Slice} {i : Nat} (h : i < s.vis.length) : s.get i = .ok s.vis[i] := by
  simp [get, h]

theorem get_err {s : Slice} {i : Nat} (h : s.vis.length ≤ i) : s.get i = .error .index := by
  simp [get, h]

/-- A slice expression inside the visible part. -/
theorem sub_vis {s : Slice} {lo hi : Nat} (h1 : lo ≤ hi) (h2 : hi ≤ s.vis.length) :
    s.sub lo hi = .ok ⟨(s.vis.take hi).drop lo, s.vis.drop hi ++ s.spare⟩ := by
  have : hi ≤ s.cap := by unfold cap; omega
  simp only [sub, h1, this, and_self, if_true]
  rw [List.take_append_of_le_length h2, List.drop_append_of_le_length h2]

end Slice

/-- Go error values; the constructors distinguish the `errors.New`/`fmt.Errorf` call sites. -/
inductive Err where
  /-- an error returned by the underlying port -/
  | io
  /-- a package error, identified by its message prefix -/
  | msg (s : String)
  deriving DecidableEq, Repr

/-- `can.RawMessage` (can/can.go:29-46) without the receipt timestamp. -/
structure RawMessage where
  /-- `Priority` -/
  priority : Byte
  /-- `Pgn` (uint32 as a natural number) -/
  pgn : Nat
  /-- `Source` -/
  source : Byte
  /-- `Destination` -/
  destination : Byte
  /-- `Length` -/
  length : Byte
  /-- `Data` -/
  data : Slice
  deriving DecidableEq, Repr, Inhabited

/-- The observable content of a `RawMessage`: its fields, with `Data` as the bytes `len` covers. -/
structure MsgView where
  priority : Byte
  pgn : Nat
  source : Byte
  destination : Byte
  length : Byte
  data : List Byte
  deriving DecidableEq, Repr, Inhabited

/-- What a user of a `RawMessage` sees (capacity beyond `len` hidden). -/
def RawMessage.view (m : RawMessage) : MsgView :=
  { priority := m.priority, pgn := m.pgn, source := m.source, destination := m.destination,
    length := m.length, data := m.data.vis }

/-- `buf[i] = v` on a slice of the given length: panics when out of range. -/
def setAt (buf : List Byte) (i : Nat) (v : Byte) : GoM (List Byte) :=
  if i < buf.length then .ok (buf.set i v) else .error .index

/-- `copy(dst[at:], src)`: overwrites as many bytes as fit, returns the new `dst` and the count. -/
def copyAt (dst : List Byte) (at' : Nat) (src : List Byte) : List Byte × Nat :=
  let n := min (dst.length - at') src.length
  (dst.take at' ++ src.take n ++ dst.drop (at' + n), n)

/-- The transmit side of the `io.ReadWriteCloser`: the buffers written so far, and a script
giving the `(n, err)` result of the k-th `Write` call (environment input). -/
structure Port where
  /-- buffers passed to `Write`, oldest first -/
  log : List (List Byte)
  /-- result of the k-th call -/
  script : Nat → Nat × Option Err

/-- `p.p.Write(buf)`: the environment records the buffer and answers from the script. -/
def Port.write (p : Port) (buf : List Byte) : (Nat × Option Err) × Port :=
  (p.script p.log.length, { p with log := p.log ++ [buf] })

/-- One outcome of `p.p.Read(rxbuf)` with a one-byte buffer: a byte, no byte and no error
(`0, nil`, allowed by `io.Reader`; `rxbuf` keeps its old content), or an error. -/
inductive Ev where
  | byte (b : Byte)
  | empty
  | fail
  deriving DecidableEq, Repr

end Argo
