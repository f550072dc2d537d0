import Verif.Canusb.Lemmas3

set_option autoImplicit false

/-!
# Properties of package `canusb`: fast packets (C20–C26)
-/

namespace Argo.Canusb
open CanSpec

/-- The CAN frame with the header of `h` and the data field `d`. -/
def withField (h : MsgView) (d : List Byte) : MsgView :=
  { h with length := UInt8.ofNat d.length, data := d }

theorem header_seq (g k : Nat) : (fpHeader g k).toNat % 32 = k % 32 := by
  unfold fpHeader; rw [UInt8.toNat_ofNat']; omega

theorem header_grp (g k : Nat) : (fpHeader g k).toNat / 32 % 4 = g % 4 := by
  unfold fpHeader; rw [UInt8.toNat_ofNat']; omega

theorem laterFields_nil (n g k : Nat) : laterFields n g k [] = [] := by
  rw [laterFields]; simp

theorem laterFields_cons (n g k : Nat) (xs : List Byte) (hn : 0 < n) (h : xs ≠ []) :
    laterFields n g k xs = (fpHeader g k :: xs.take n) :: laterFields n g (k + 1) (xs.drop n) := by
  rw [laterFields, if_neg]
  rintro (e | e)
  · exact h e
  · omega

theorem laterFields_length (n g k : Nat) (xs : List Byte) (hn : 0 < n) :
    (laterFields n g k xs).length = (xs.length + n - 1) / n := by
  by_cases h : xs = []
  · subst h
    rw [laterFields_nil]
    simp only [List.length_nil, Nat.zero_add]
    rw [Nat.div_eq_of_lt (by omega)]
  · have hpos : 0 < xs.length := List.length_pos_iff.2 h
    rw [laterFields_cons n g k xs hn h, List.length_cons,
      laterFields_length n g (k + 1) (xs.drop n) hn, List.length_drop]
    rcases Nat.lt_or_ge n xs.length with hlt | hge
    · have : xs.length + n - 1 = (xs.length - n + n - 1) + n := by omega
      rw [this, Nat.add_div_right _ hn]
    · have h1 : xs.length - n + n - 1 = n - 1 := by omega
      rw [h1, Nat.div_eq_of_lt (by omega)]
      have h2 : xs.length + n - 1 = (xs.length - 1) + n := by omega
      rw [h2, Nat.add_div_right _ hn, Nat.div_eq_of_lt (by omega)]
  termination_by xs.length
  decreasing_by
    have : 0 < xs.length := List.length_pos_iff.2 h
    simp only [List.length_drop]; omega

theorem chain_later (n g : Nat) (hdr : MsgView) (pad : List Byte) (hn : 0 < n) (xs : List Byte) :
    ∀ (fs : List MsgView) (v : MsgView) (k : Nat), Chain (g % 4) fs v k →
      v.data.length + xs.length = v.length.toNat → xs ≠ [] →
      k + (laterFields n g (k + 1) xs).length < 32 → v.pgn = hdr.pgn → v.source = hdr.source →
      Chain (g % 4) (fs ++ (padLast pad (laterFields n g (k + 1) xs)).map (withField hdr))
        { v with data := v.data ++ xs ++ pad } (k + (laterFields n g (k + 1) xs).length) := by
  induction hN : xs.length using Nat.strongRecOn generalizing xs with
  | _ N ih =>
    intro fs v k hc hlen hne hk hp hs
    have hpos : 0 < xs.length := List.length_pos_iff.2 hne
    rw [laterFields_cons n g _ xs hn hne] at hk ⊢
    rw [List.length_cons] at hk ⊢
    by_cases hlast : xs.length ≤ n
    · have ht : xs.take n = xs := List.take_of_length_le hlast
      have hd : xs.drop n = [] := List.drop_of_length_le hlast
      rw [ht, hd, laterFields_nil]
      simp only [padLast, List.map_cons, List.map_nil, List.length_nil, Nat.zero_add]
      have := Chain.next (f := withField hdr (fpHeader g (k + 1) :: xs ++ pad)) (h := fpHeader g (k + 1))
        (c := xs ++ pad) hc (by omega) hp.symm hs.symm rfl
        (by rw [header_seq]; omega) (header_grp g (k + 1))
      simpa [List.append_assoc] using this
    · have hne' : xs.drop n ≠ [] := by
        intro e
        have := congrArg List.length e
        simp at this; omega
      have htl : (xs.take n).length = n := by rw [List.length_take]; omega
      have hstep := Chain.next (f := withField hdr (fpHeader g (k + 1) :: xs.take n))
        (h := fpHeader g (k + 1)) (c := xs.take n) hc (by omega) hp.symm hs.symm rfl
        (by rw [header_seq]; omega) (header_grp g (k + 1))
      have hnext := ih (xs.drop n).length (by rw [List.length_drop]; omega) (xs.drop n) rfl _ _ _ hstep
        (by simp only [List.length_append, htl, List.length_drop]; omega) hne' (by omega) hp hs
      have hpl : padLast pad ((fpHeader g (k + 1) :: xs.take n)
          :: laterFields n g (k + 1 + 1) (xs.drop n))
          = (fpHeader g (k + 1) :: xs.take n) :: padLast pad (laterFields n g (k + 1 + 1) (xs.drop n)) := by
        rw [laterFields_cons n g _ _ hn hne']
        rfl
      rw [hpl, List.map_cons]
      have e1 : v.data ++ xs ++ pad = v.data ++ xs.take n ++ xs.drop n ++ pad := by
        rw [List.append_assoc v.data (xs.take n), List.take_append_drop]
      have e2 : k + ((laterFields n g (k + 1 + 1) (xs.drop n)).length + 1)
          = k + 1 + (laterFields n g (k + 1 + 1) (xs.drop n)).length := by omega
      rw [e1, e2]
      simpa [List.append_assoc] using hnext

/-- The frames of a fast packet with `n` payload bytes in each later frame form a chain that
assembles to the payload, provided there are at most 32 of them. -/
theorem chain_fast (n g : Nat) (hdr : MsgView) (payload pad : List Byte) (hn : 0 < n)
    (hlen : payload.length < 256) (hk : (fastFields n g payload).length ≤ 32) :
    Chain (g % 4) ((padLast pad (fastFields n g payload)).map (withField hdr))
      { hdr with length := UInt8.ofNat payload.length, data := payload ++ pad }
      ((fastFields n g payload).length - 1) := by
  have hL : (UInt8.ofNat payload.length).toNat = payload.length := by
    rw [UInt8.toNat_ofNat']; omega
  unfold fastFields at hk ⊢
  rw [List.length_cons] at hk ⊢
  by_cases hs : payload.length ≤ 6
  · rw [List.drop_of_length_le hs, List.take_of_length_le hs, laterFields_nil]
    exact Chain.first (f := withField hdr (fpHeader g 0 :: UInt8.ofNat payload.length :: payload ++ pad))
      (h := fpHeader g 0) (n := UInt8.ofNat payload.length) (c := payload ++ pad) rfl
      (header_seq g 0) (header_grp g 0)
  · have hne : payload.drop 6 ≠ [] := by
      intro e
      have := congrArg List.length e
      simp at this; omega
    have hpl : padLast pad ((fpHeader g 0 :: UInt8.ofNat payload.length :: payload.take 6)
        :: laterFields n g 1 (payload.drop 6))
        = (fpHeader g 0 :: UInt8.ofNat payload.length :: payload.take 6)
          :: padLast pad (laterFields n g 1 (payload.drop 6)) := by
      rw [laterFields_cons n g _ _ hn hne]; rfl
    have hfirst := Chain.first
      (f := withField hdr (fpHeader g 0 :: UInt8.ofNat payload.length :: payload.take 6))
      (h := fpHeader g 0) (n := UInt8.ofNat payload.length) (c := payload.take 6) rfl
      (header_seq g 0) (header_grp g 0)
    have := chain_later n g hdr pad hn (payload.drop 6) _ _ _ hfirst
      (by simp only [List.length_take, List.length_drop, hL]; omega) hne (by simp only [Nat.zero_add]; omega) rfl rfl
    rw [hpl, List.map_cons]
    simpa [List.append_assoc, withField] using this

theorem padLast_length (pad : List Byte) (l : List (List Byte)) :
    (padLast pad l).length = l.length := by
  induction l with
  | nil => rfl
  | cons a l ih =>
    cases l with
    | nil => rfl
    | cons b l => simp only [padLast, List.length_cons] at ih ⊢; rw [ih]

/-- Receiving in order the lines of a fast packet with `n` payload bytes in each later frame (at most
32 frames), with `pad` bytes after the payload in the last frame, from any prior state. -/
theorem fast_received (fp : List Nat) (m : Partials) (hdr : MsgView) (n g : Nat)
    (payload pad : List Byte) (ls : List Slice) (hn : 0 < n) (hlen : payload.length < 256)
    (hk : (fastFields n g payload).length ≤ 32)
    (hfast : isFastPacket fp hdr.pgn = true)
    (hp : Parses ls ((padLast pad (fastFields n g payload)).map (withField hdr))) :
    receive fp m ls = .ok (List.replicate (ls.length - 1) none ++
        [some { hdr with length := UInt8.ofNat payload.length, data := payload ++ pad }],
      m.set (slot (g % 4) hdr.pgn hdr.source) none) := by
  have hL : (UInt8.ofNat payload.length).toNat = payload.length := by
    rw [UInt8.toNat_ofNat']; omega
  have h := chain_received fp m (g % 4) _ _ _ (chain_fast n g hdr payload pad hn hlen hk) ls hp hfast
  obtain ⟨h1, _, _, h2⟩ := h
  rw [if_neg (by rw [hL, List.length_append]; omega)] at h2
  rw [h2]
  have : ls.length = (fastFields n g payload).length := by
    rw [hp.length, List.length_map, padLast_length]
  rw [this]

/-- C22: a payload of up to 223 bytes split as NMEA 2000 prescribes (6, then 7 bytes per frame; any
padding `pad` in the last frame), received in order from any prior state: nothing is delivered before
the last line and the last line delivers exactly the payload (followed by the padding), its size as
`Length`, and the common header of the frames; the state of no other stream changes. -/
theorem C22_standard (fp : List Nat) (m : Partials) (hdr : MsgView) (g : Nat)
    (payload pad : List Byte) (ls : List Slice) (hlen : payload.length ≤ 223)
    (hfast : isFastPacket fp hdr.pgn = true)
    (hp : Parses ls ((padLast pad (fastFields 7 g payload)).map (withField hdr))) :
    receive fp m ls = .ok (List.replicate (ls.length - 1) none ++
        [some { hdr with length := UInt8.ofNat payload.length, data := payload ++ pad }],
      m.set (slot (g % 4) hdr.pgn hdr.source) none) := by
  refine fast_received fp m hdr 7 g payload pad ls (by omega) (by omega) ?_ hfast hp
  unfold fastFields
  rw [List.length_cons, laterFields_length _ _ _ _ (by omega), List.length_drop]
  omega

/-- Any frame whose identifier bytes are known has a line: used to show that the hypotheses of the
reassembly theorems can be met for every payload. -/
theorem line_exists (b0 b1 b2 b3 : Byte) (d ts : List Byte) (hd : d.length ≤ 8) (hts : ts.length = 4) :
    parsed ⟨bodyText b0 b1 b2 b3 d ++ ts, []⟩ = .frame
      (withField (decoded (b0.toNat * 2 ^ 24 + b1.toNat * 2 ^ 16 + b2.toNat * 2 ^ 8 + b3.toNat) []) d) :=
  (C15_accepts _ _ _).2 ⟨_, _, bodyText_lawicel b0 b1 b2 b3 d ts hd hts, rfl⟩

/-- Lines for a list of data fields of at most 8 bytes, all with the same identifier. -/
theorem lines_parse (b0 b1 b2 b3 : Byte) (fields : List (List Byte)) (ts : List Byte)
    (hts : ts.length = 4) (hf : ∀ d ∈ fields, d.length ≤ 8) :
    Parses (fields.map fun d => ⟨bodyText b0 b1 b2 b3 d ++ ts, []⟩)
      (fields.map (withField (decoded (b0.toNat * 2 ^ 24 + b1.toNat * 2 ^ 16 + b2.toNat * 2 ^ 8
        + b3.toNat) []))) := by
  induction fields with
  | nil => trivial
  | cons d fields ih =>
    exact ⟨line_exists b0 b1 b2 b3 d ts (hf d (by simp)) hts, ih fun d hd => hf d (by simp [hd])⟩

/-- An 18-byte payload. -/
def samplePayload : List Byte := (List.range 18).map UInt8.ofNat

/-- Its three NMEA 2000 data fields, the last padded to 8 bytes. -/
def sampleFields : List (List Byte) :=
  [[64, 18, 0, 1, 2, 3, 4, 5], [65, 6, 7, 8, 9, 10, 11, 12], [66, 13, 14, 15, 16, 17, 0xFF, 0xFF]]

theorem sampleFields_eq : padLast [0xFF, 0xFF] (fastFields 7 2 samplePayload) = sampleFields := by
  unfold fastFields
  rw [laterFields_cons _ _ _ _ (by decide) (by decide), laterFields_cons _ _ _ _ (by decide) (by decide),
    show List.drop 7 (List.drop 7 (List.drop 6 samplePayload)) = [] by decide, laterFields_nil]
  decide

/-- Hypotheses of C22 met: PGN 129029 from station 5, any prior state; delivered with line three. -/
example (m : Partials) :
    receive [129029] m (sampleFields.map fun d => ⟨bodyText 0x0D 0xF8 0x05 5 d ++ [48, 48, 48, 48], []⟩)
      = .ok ([none, none, some
          { priority := 3, pgn := 129029, source := 5, destination := 255
            length := 18, data := samplePayload ++ [0xFF, 0xFF] }], m.set (slot 2 129029 5) none) :=
  C22_standard [129029] m (decoded 0x0DF80505 []) 2 samplePayload [0xFF, 0xFF] _ (by decide) (by decide)
    (by rw [sampleFields_eq]; exact lines_parse 0x0D 0xF8 0x05 5 sampleFields [48, 48, 48, 48] rfl (by decide))

end Argo.Canusb
