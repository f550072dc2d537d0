import Verif.Iface.Model
import Verif.Canusb.Props6
import Verif.Actisense.Props2
import Verif.Nmea2k.PrintProps
import Mathlib.Tactic.Tauto

set_option autoImplicit false

/-! # Starting an interface (C88) -/

namespace Argo.Iface

open Argo
open Argo.Nmea2k (Pgn Parsed Val)

/-! ## The registry of fast packets -/

theorem addFastPackets_eq (tbl : List Pgn) (fp : List Nat) :
    addFastPackets tbl fp =
      ((tbl.filter (fun d => 8 < d.size)).map (·.pgn)).foldl (fun fp pgn => Canusb.AddFastPacket pgn fp) fp := by
  unfold addFastPackets
  induction tbl generalizing fp with
  | nil => rfl
  | cons d tbl ih =>
    simp only [List.foldl_cons, List.filter_cons, gt_iff_lt]
    rw [ih]
    by_cases h : 8 < d.size <;> simp [h]

/-- **C88** (fast packets): after the set-up of a CANUSB interface a PGN is reassembled from fast packets
exactly if it was before or the table has a definition of it with more than eight bytes. -/
theorem C88_registry (tbl : List Pgn) {fp : List Nat} (hs : fp.Pairwise (· < ·)) (pgn : Nat) :
    Canusb.isFastPacket (addFastPackets tbl fp) pgn = true ↔
      pgn ∈ fp ∨ ∃ d ∈ tbl, d.pgn = pgn ∧ 8 < d.size := by
  rw [addFastPackets_eq]
  obtain ⟨h1, h2⟩ := Canusb.registry_foldl ((tbl.filter (fun d => 8 < d.size)).map (·.pgn)) fp hs
  rw [Canusb.isFastPacket_mem _ h1, h2]
  constructor
  · rintro (h | h)
    · obtain ⟨d, hd, rfl⟩ := List.mem_map.mp h
      obtain ⟨m, l⟩ := List.mem_filter.mp hd
      exact Or.inr ⟨d, m, rfl, by simpa using l⟩
    · exact Or.inl h
  · rintro (h | ⟨d, m, rfl, l⟩)
    · exact Or.inr h
    · exact Or.inl (List.mem_map.mpr ⟨d, List.mem_filter.mpr ⟨m, by simpa using l⟩, rfl⟩)

/-- Registering the table again (a second CANUSB interface) changes nothing observable. -/
theorem C88_registry_again (tbl : List Pgn) {fp : List Nat} (hs : fp.Pairwise (· < ·)) (pgn : Nat) :
    Canusb.isFastPacket (addFastPackets tbl (addFastPackets tbl fp)) pgn =
      Canusb.isFastPacket (addFastPackets tbl fp) pgn := by
  have h1 : (addFastPackets tbl fp).Pairwise (· < ·) := by
    rw [addFastPackets_eq]; exact (Canusb.registry_foldl _ fp hs).1
  rw [Bool.eq_iff_iff, C88_registry tbl h1, C88_registry tbl hs, ← Canusb.isFastPacket_mem _ h1,
    C88_registry tbl hs]
  tauto

/-- With the shipped table: 130820 (definitions of 5 to 32 bytes) and 129029 are, 127250 and the
proprietary 130824 (one definition, 8 bytes) are not. -/
example : [130820, 129029, 127250, 130824].map
    (Canusb.isFastPacket (addFastPackets Nmea2k.Table.pgnList [])) = [true, true, false, false] := by
  decide +kernel

/-! ## Start-up -/

/-- The NGT-1 frames written at start-up: receive all, P codes off, query of the operating mode. -/
def ngtSetup : List (List Byte) :=
  [[0x10, 0x02, 0xA1, 0x03, 0x11, 0x02, 0x00, 0x49, 0x10, 0x03],
   [0x10, 0x02, 0xA1, 0x04, 0x13, 0x00, 0x00, 0x00, 0x48, 0x10, 0x03],
   [0x10, 0x02, 0xA1, 0x01, 0x11, 0x4D, 0x10, 0x03]]

/-- Write number `n` of the port fails. -/
def writeFails (p : Port) (n : Nat) : Bool := (p.script (p.log.length + n)).2.isSome

theorem run_get (p : Port) :
    (Actisense.Cmd.GetOperatingMode.run p).2 =
      { p with log := p.log ++ [[0x10, 0x02, 0xA1, 0x01, 0x11, 0x4D, 0x10, 0x03]] } := rfl

theorem open_script (p : Port) : (Actisense.OpenChannel p).2.script = p.script := by
  unfold Actisense.OpenChannel
  cases h : (Actisense.Cmd.SetOperatingMode Actisense.OpModeRxAll).run p with
  | mk a q =>
    have hq : q.script = p.script := by
      have : ((Actisense.Cmd.SetOperatingMode Actisense.OpModeRxAll).run p).2.script = p.script := rfl
      rw [h] at this; exact this
    obtain ⟨n, err⟩ := a
    cases err with
    | some e => exact hq
    | none =>
      cases h2 : (Actisense.Cmd.SetPortPCodes [0, 0, 0]).run q with
      | mk b r =>
        have hr : r.script = q.script := by
          have : ((Actisense.Cmd.SetPortPCodes [0, 0, 0]).run q).2.script = q.script := rfl
          rw [h2] at this; exact this
        obtain ⟨n2, err2⟩ := b
        cases err2 with
        | some e => simp only [h2]; exact hr.trans hq
        | none => simp only [h2]; exact hr.trans hq

theorem errCases (o : Option Err) : o = none ∨ ∃ e, o = some e := by cases o <;> simp

variable (tbl : List Pgn) (fp : List Nat) (group : Byte)

/-- **C88** (exit): the process exits at once, with all its interfaces, exactly if the path does not exist,
the serial port cannot be opened, or the type is unknown. -/
theorem C88_exit (kind : Kind) (serialOpen : Option Port) (d : Device) :
    start tbl fp group kind serialOpen d = .ok .exit ↔
      kind = .missing ∨ (kind = .charDevice ∧ serialOpen = none) ∨ d = .other := by
  have hc : ∀ port, configure tbl fp group d port = .ok .exit ↔ d = .other := by
    intro port
    cases d with
    | other => simp [configure]
    | file => simp [configure]
    | canusb =>
      simp only [reduceCtorEq, iff_false]
      cases port with
      | none => simp [configure]
      | some p =>
        obtain ⟨text, _, ho⟩ := Canusb.C80_open p group 221
        simp only at ho
        intro h
        simp only [configure, ho] at h
        revert h
        split
        · simp [bind, Except.bind, pure, Except.pure]
        · split <;> simp [bind, Except.bind, pure, Except.pure]
    | actisense =>
      simp only [reduceCtorEq, iff_false]
      cases port with
      | none => simp [configure]
      | some p =>
        intro h
        simp only [configure] at h
        split at h <;> cases h
  unfold start
  cases kind with
  | missing => simp
  | charDevice => cases serialOpen with
    | none => simp
    | some p => simp [hc]
  | other => simp [hc]

/-- **C88** (no serial device): a serial interface whose path is not a character device (a file, a pipe, a
socket) does not exit: it goes on with no port, and the whole process panics. -/
theorem C88_not_serial (serialOpen : Option Port) {d : Device} (hd : d = .canusb ∨ d = .actisense) :
    start tbl fp group .other serialOpen d = .ok .nilPort := by
  rcases hd with rfl | rfl <;> rfl

/-- **C88** (CANUSB): if the first two commands are written, the interface runs with address 221, has
written the bit rate, the open command and a claim of address 221, and knows the fast packets of the
table; otherwise the error is ignored and the process panics. -/
theorem C88_canusb (p : Port) :
    ∃ text, (∀ ts sp, ts.length = 4 → Canusb.parsed ⟨text ++ ts, sp⟩ = .frame (Canusb.claimFrom 221)) ∧
    start tbl fp group .charDevice (some p) .canusb =
      if writeFails p 0 ∨ writeFails p 1 then .ok .nilPort
      else .ok (.canusb { port := { p with log := p.log ++
                            ["S5\r".toList.map Char.toUInt8, "O\r".toList.map Char.toUInt8, text ++ [13]] },
                          a := 221, isOpen := true, group := group } (addFastPackets tbl fp)) := by
  obtain ⟨text, ht, ho⟩ := Canusb.C80_open p group 221
  refine ⟨text, ht, ?_⟩
  simp only at ho
  simp only [start, configure, ho, writeFails, Nat.add_zero]
  rcases errCases (p.script p.log.length).2 with h0 | ⟨e, h0⟩
  · rcases errCases (p.script (p.log.length + 1)).2 with h1 | ⟨e, h1⟩
    · simp [h0, h1, bind, Except.bind, pure, Except.pure]
    · simp [h0, h1, bind, Except.bind, pure, Except.pure]
  · simp [h0, bind, Except.bind, pure, Except.pure]

/-- **C88** (NGT-1): if the first two frames are written, the interface runs and has written the three
set-up frames; otherwise the error is ignored and the process panics. -/
theorem C88_ngt (p : Port) :
    start tbl fp group .charDevice (some p) .actisense =
      if writeFails p 0 ∨ writeFails p 1 then .ok .nilPort
      else .ok (.actisense { p with log := p.log ++ ngtSetup }) := by
  have hb := Actisense.C10_bytes p
  have hs := open_script p
  simp only at hb
  simp only [start, configure, writeFails, Nat.add_zero]
  cases h : Actisense.OpenChannel p with
  | mk a q =>
    obtain ⟨ok, err⟩ := a
    rw [h] at hb hs
    simp only at hb hs ⊢
    rcases errCases (p.script p.log.length).2 with h0 | ⟨e, h0⟩
    · rcases errCases (p.script (p.log.length + 1)).2 with h1 | ⟨e, h1⟩
      · simp only [h0, h1, Prod.mk.injEq] at hb
        rw [hb.1.1, run_get, hb.2, hs]
        simp [ngtSetup, h0, h1]
      · simp only [h0, h1, Prod.mk.injEq] at hb
        simp [hb.1.1, h0, h1]
    · simp only [h0, Prod.mk.injEq] at hb
      simp [hb.1.1, h0]

/-- **C88** (file): any existing path that is not a serial port is played back. -/
theorem C88_file (serialOpen : Option Port) :
    start tbl fp group .other serialOpen .file = .ok .file := rfl

/-- Non-vacuity: a port whose writes succeed, and one whose second write fails. -/
example : ¬ (writeFails ⟨[], fun _ => (0, none)⟩ 0 ∨ writeFails ⟨[], fun _ => (0, none)⟩ 1) ∧
    writeFails ⟨[], fun n => (0, if n = 1 then some .io else none)⟩ 1 := by decide

end Argo.Iface
