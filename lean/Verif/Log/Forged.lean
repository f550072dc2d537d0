import Verif.Log.Props

set_option autoImplicit false

/-! # C124: what the lines of the log do not say -/

namespace Argo.Log

open Argo
open Argo.Nmea2k (Val Pgn DataMap Parsed ParsePacket)
open Argo.Nmea2k.Table (pgnList)
open Argo.Signalk (Str bs Time Stamp)
open Argo.Float

/-- A text in a field of `n` bytes. -/
def padded (n : ℕ) (t : Str) : Str := t ++ List.replicate (n - t.length) 0

/-- Product information with a model and a software version. -/
def product (model software : Str) : RawMessage :=
  ⟨6, 126996, 7, 255, 134, ⟨[1, 5, 100, 0] ++ padded 32 model ++ padded 32 software ++ padded 32 [] ++ padded 32 [] ++ [1, 2], []⟩⟩

/-- A model that goes on. -/
def forgedModel : Str := bs "A; 3.Software Version Code = B"

/-- The data of a decoded message. -/
def dataOf (m : RawMessage) : Option (ℕ × DataMap) :=
  match Nmea2k.parsePacketN pgnList (Nmea2k.shippedEnv fun _ => 0) m 20 with
  | some (.ok p) => if p.header = m then some (p.index, p.data) else none
  | _ => none

theorem product_first : Nmea2k.first pgnList 126996 = .ok (72, Nmea2k.Table.p72) := by decide +kernel

theorem parsed_of (conv : ℤ → ℕ) {m : RawMessage} {i j : ℕ} {d0 : Pgn} (hf : Nmea2k.first pgnList m.pgn = .ok (j, d0)) (hj : 3 < j)
    {dm : DataMap} (h : dataOf m = some (i, dm)) : ParsePacket pgnList (Nmea2k.shippedEnv conv) m (.ok ⟨m, i, dm⟩) := by
  unfold dataOf at h
  split at h
  · rename_i p hp
    split at h
    · rename_i hm
      have hp' : p = ⟨m, i, dm⟩ := by
        obtain ⟨a, b, c⟩ := p
        simp only at hm h
        have h := Option.some.inj h
        rw [hm, (Prod.mk.inj h).1, (Prod.mk.inj h).2]
      rw [hp'] at hp
      have hne : pgnList ≠ [] := List.cons_ne_nil _ _
      refine ⟨20, Eq.trans ?_ hp⟩
      exact Nmea2k.parse_sub (tbl := pgnList) (m := m) (env := Nmea2k.shippedEnv conv)
        (env' := Nmea2k.shippedEnv fun _ => 0) rfl rfl hne hf (fun t d ht hd => Nmea2k.table_sub t d (by omega) hd) 20
    · cases h
  · cases h

theorem genuine_data : dataOf (product (bs "A") (bs "B")) =
    some (72, [(0, .u64 1281), (1, .u64 100), (2, .chars (bs "A")), (3, .chars (bs "B")), (4, .nil), (5, .nil), (6, .u64 1), (7, .u64 2)]) := by
  decide +kernel

theorem forged_data : dataOf (product forgedModel []) =
    some (72, [(0, .u64 1281), (1, .u64 100), (2, .chars forgedModel), (3, .nil), (4, .nil), (5, .nil), (6, .u64 1), (7, .u64 2)]) := by
  decide +kernel

theorem split_data : dataOf (product (bs "A\nB") []) =
    some (72, [(0, .u64 1281), (1, .u64 100), (2, .chars (bs "A\nB")), (3, .nil), (4, .nil), (5, .nil), (6, .u64 1), (7, .u64 2)]) := by
  decide +kernel

theorem product_print (m : RawMessage) (dm : DataMap) (here : Place) (at_ : Time × ℕ) {ls : List (ℕ × String × Val)}
    (h : Nmea2k.print pgnList ⟨m, 72, dm⟩ false = .ok ("Product Information", ls)) :
    printText here pgnList ⟨m, 72, dm⟩ at_ false = .ok (line here ⟨m, 72, dm⟩ at_ "Product Information" ls) := by
  rw [printText_eq, h]

theorem genuine_print : Nmea2k.print pgnList ⟨product (bs "A") (bs "B"), 72,
    [(0, .u64 1281), (1, .u64 100), (2, .chars (bs "A")), (3, .chars (bs "B")), (4, .nil), (5, .nil), (6, .u64 1), (7, .u64 2)]⟩ false =
    .ok ("Product Information", [(0, "NMEA 2000 Version", .u64 1281), (1, "Product Code", .u64 100), (2, "Model ID", .chars (bs "A")),
      (3, "Software Version Code", .chars (bs "B")), (6, "Certification Level", .u64 1), (7, "Load Equivalency", .u64 2)]) := by
  decide +kernel

theorem forged_print : Nmea2k.print pgnList ⟨product forgedModel [], 72,
    [(0, .u64 1281), (1, .u64 100), (2, .chars forgedModel), (3, .nil), (4, .nil), (5, .nil), (6, .u64 1), (7, .u64 2)]⟩ false =
    .ok ("Product Information", [(0, "NMEA 2000 Version", .u64 1281), (1, "Product Code", .u64 100), (2, "Model ID", .chars forgedModel),
      (6, "Certification Level", .u64 1), (7, "Load Equivalency", .u64 2)]) := by
  decide +kernel

/-- **C124** is false: two messages, one with the software version `B` and one without a software version, have the same line. -/
theorem C124_forged_false (conv : ℤ → ℕ) : ∃ m m' p p' v, ParsePacket pgnList (Nmea2k.shippedEnv conv) m (.ok p) ∧
    ParsePacket pgnList (Nmea2k.shippedEnv conv) m' (.ok p') ∧ p.data.get 3 = .chars v ∧ p'.data.get 3 = .nil ∧
    ∀ here at_, ∃ t, printText here pgnList p at_ false = .ok t ∧ printText here pgnList p' at_ false = .ok t := by
  refine ⟨_, _, _, _, bs "B", parsed_of conv product_first (by norm_num) genuine_data,
    parsed_of conv product_first (by norm_num) forged_data, rfl, rfl, fun here at_ => ⟨_, product_print _ _ here at_ genuine_print, ?_⟩⟩
  rw [product_print _ _ here at_ forged_print]
  refine congrArg Except.ok ?_
  have e : body here (2, "Model ID", .chars forgedModel) =
      body here (2, "Model ID", .chars (bs "A")) ++ 59 :: body here (3, "Software Version Code", .chars (bs "B")) := by
    show body ⟨fun _ => ⟨0, 0⟩, fun _ => []⟩ (2, "Model ID", .chars forgedModel) =
      body ⟨fun _ => ⟨0, 0⟩, fun _ => []⟩ (2, "Model ID", .chars (bs "A")) ++ 59 ::
        body ⟨fun _ => ⟨0, 0⟩, fun _ => []⟩ (3, "Software Version Code", .chars (bs "B"))
    decide +kernel
  have eh : ∀ m m' : RawMessage, ∀ dm dm' : DataMap, m.priority = m'.priority → m.source = m'.source → m.destination = m'.destination →
      m.pgn = m'.pgn → heading ⟨m, 72, dm⟩ at_ "Product Information" = heading ⟨m', 72, dm'⟩ at_ "Product Information" := by
    intro m m' dm dm' h1 h2 h3 h4
    unfold heading
    simp only [h1, h2, h3, h4]
  unfold line
  rw [if_neg (by simp), if_neg (by simp), eh (product forgedModel []) (product (bs "A") (bs "B")) _
    [(0, .u64 1281), (1, .u64 100), (2, .chars (bs "A")), (3, .chars (bs "B")), (4, .nil), (5, .nil), (6, .u64 1), (7, .u64 2)] rfl rfl rfl rfl]
  simp only [List.map_cons, List.map_nil, List.intercalate_cons_cons, List.intercalate_singleton, e]
  simp

/-- **C124** is false: the text of a message can have two lines. -/
theorem C124_newline_false (conv : ℤ → ℕ) : ∃ m p, ParsePacket pgnList (Nmea2k.shippedEnv conv) m (.ok p) ∧
    ∀ here, LocalPlace here → ∀ at_ verbose, ∃ t, printText here pgnList p at_ verbose = .ok t ∧ (10 : Byte) ∈ t := by
  have hp := parsed_of conv product_first (by norm_num) split_data
  refine ⟨_, _, hp, fun here hl at_ verbose => ?_⟩
  obtain ⟨t, ht, hm⟩ := C124_one_line hl hp at_ verbose
  refine ⟨t, ht, hm.mpr ⟨2, by decide, bs "A\nB", rfl, by decide +kernel⟩⟩

/-! ## Numbers -/

theorem temperature_number : number (.f32div 29615 100) = some (9704243 * 2 ^ (-15 : ℤ)) := by
  have h1 : single.round ((29615 : ℤ) : ℚ) = (29615 : ℤ) := round_int single (by simp only [single]; norm_num) (by simp only [single]; norm_num)
  have h2 : single.round ((100 : ℕ) : ℚ) = (100 : ℕ) := single_nat (by norm_num)
  simp only [number, h1, h2, Option.some.injEq]
  have := round_eq single (x := ((29615 : ℤ) : ℚ) / (100 : ℕ)) (e := -15) (m := 9704243) (by simp only [single]; norm_num)
    (by simp only [single]; norm_num [abs_of_pos]) (by simp only [single]; norm_num [abs_of_pos]) (by norm_num [abs_of_pos])
  rw [this]; norm_num

theorem temperature_round : roundEven (|(9704243 : ℚ) * 2 ^ (-15 : ℤ)| * 10 ^ 6) = 296149994 := by
  apply roundEven_eq
  norm_num [abs_of_pos]

theorem temperature_text (here : Place) : valueText here (.f32div 29615 100) = bs "296.149994" := by
  simp only [valueText, temperature_number, Option.getD_some]
  unfold fixed6
  rw [temperature_round, if_neg (by norm_num)]
  decide +kernel

/-- Outside temperature, 296.15 K. -/
def temperature : RawMessage := ⟨5, 130312, 7, 255, 8, ⟨[0, 0, 1, 0xAF, 0x73, 255, 255, 255], []⟩⟩

theorem temperature_data : dataOf temperature = some (168, [(0, .u64 0), (1, .u64 0), (2, .text "Outside Temperature"),
    (3, .f32div 29615 100), (4, .nil)]) := by decide +kernel

/-- **C124** is false: a temperature of 296.15 K is printed with digits it does not have. -/
theorem C124_temperature_false (conv : ℤ → ℕ) : ∃ p, ParsePacket pgnList (Nmea2k.shippedEnv conv) temperature (.ok p) ∧
    quantity (p.data.get 3) = some (29615 / 100) ∧
    ∀ here, valueText here (p.data.get 3) = bs "296.149994" ∧ decimal (valueText here (p.data.get 3)) ≠ 29615 / 100 := by
  refine ⟨_, parsed_of conv (show Nmea2k.first pgnList 130312 = .ok (168, Nmea2k.Table.p168) by decide +kernel) (by norm_num) temperature_data,
    ?_, fun here => ?_⟩
  · show quantity (.f32div 29615 100) = _
    norm_num [quantity]
  · show valueText here (.f32div 29615 100) = _ ∧ decimal (valueText here (.f32div 29615 100)) ≠ _
    refine ⟨temperature_text here, ?_⟩
    simp only [valueText, temperature_number, Option.getD_some]
    obtain ⟨q, hq, _, hd⟩ := fixed6_text (9704243 * 2 ^ (-15 : ℤ))
    rw [temperature_round] at hq
    have : q = 296149994 := by exact_mod_cast hq
    rw [hd, this, if_neg (by norm_num)]
    norm_num

/-- A position `k` steps of the bus north and east of the origin. -/
def origin (k : Byte) : RawMessage := ⟨2, 129025, 10, 255, 8, ⟨[k, 0, 0, 0, k, 0, 0, 0], []⟩⟩

theorem origin_data : ∀ k ∈ [(0 : Byte), 1], dataOf (origin k) = some (105, [(0, .f32div k.toNat (10 ^ 7)), (1, .f32div k.toNat (10 ^ 7))]) := by
  decide +kernel

theorem origin_number : number (.f32div 1 (10 ^ 7)) = some (14073749 * 2 ^ (-47 : ℤ)) := by
  have h1 : single.round ((1 : ℤ) : ℚ) = (1 : ℤ) := round_int single (by simp only [single]; norm_num) (by simp only [single]; norm_num)
  simp only [number, h1, single_e7, Option.some.injEq]
  have := round_eq single (x := ((1 : ℤ) : ℚ) / (10 ^ 7 : ℕ)) (e := -47) (m := 14073749) (by simp only [single]; norm_num)
    (by simp only [single]; norm_num [abs_of_pos]) (by simp only [single]; norm_num [abs_of_pos]) (by norm_num [abs_of_pos])
  rw [this]; norm_num

theorem origin_text (here : Place) : ∀ k ∈ [(0 : Byte), 1], valueText here (.f32div k.toNat (10 ^ 7)) = bs "0.000000" := by
  intro k hk
  have : k = 0 ∨ k = 1 := by simpa using hk
  rcases this with rfl | rfl
  · have e : number (.f32div 0 (10 ^ 7)) = some 0 := by
      simp only [number, Option.some.injEq]
      rw [show single.round ((0 : ℤ) : ℚ) = 0 by simp [Float.round_zero], zero_div, Float.round_zero]
    show valueText here (.f32div 0 (10 ^ 7)) = _
    simp only [valueText, e, Option.getD_some]
    unfold fixed6
    rw [show roundEven (|(0 : ℚ)| * 10 ^ 6) = 0 from roundEven_eq (by norm_num), if_neg (by norm_num)]
    decide +kernel
  · show valueText here (.f32div 1 (10 ^ 7)) = _
    simp only [valueText, origin_number, Option.getD_some]
    unfold fixed6
    rw [show roundEven (|(14073749 : ℚ) * 2 ^ (-47 : ℤ)| * 10 ^ 6) = 0 from roundEven_eq (by norm_num [abs_of_pos]), if_neg (by norm_num)]
    decide +kernel

/-- **C124** is false: different positions have the same line. -/
theorem C124_position_false (conv : ℤ → ℕ) : ∃ m m' p p', ParsePacket pgnList (Nmea2k.shippedEnv conv) m (.ok p) ∧
    ParsePacket pgnList (Nmea2k.shippedEnv conv) m' (.ok p') ∧ quantity (p.data.get 0) ≠ quantity (p'.data.get 0) ∧
    ∀ here at_ verbose, ∃ t, printText here pgnList p at_ verbose = .ok t ∧ printText here pgnList p' at_ verbose = .ok t := by
  have hf : Nmea2k.first pgnList 129025 = .ok (105, Nmea2k.Table.p105) := by decide +kernel
  refine ⟨origin 0, origin 1, ⟨origin 0, 105, _⟩, ⟨origin 1, 105, _⟩, parsed_of conv hf (by norm_num) (origin_data 0 (by decide)),
    parsed_of conv hf (by norm_num) (origin_data 1 (by decide)), ?_, fun here at_ verbose => ?_⟩
  · show quantity (.f32div 0 (10 ^ 7)) ≠ quantity (.f32div 1 (10 ^ 7))
    norm_num [quantity]
  · have hp : ∀ k ∈ [(0 : Byte), 1], ∀ verbose, Nmea2k.print pgnList ⟨origin k, 105, [(0, .f32div k.toNat (10 ^ 7)), (1, .f32div k.toNat (10 ^ 7))]⟩ verbose =
        .ok ("Position, Rapid Update", [(0, "Latitude", .f32div k.toNat (10 ^ 7)), (1, "Longitude", .f32div k.toNat (10 ^ 7))]) := by decide +kernel
    refine ⟨_, by rw [printText_eq, hp 0 (by decide)], ?_⟩
    rw [printText_eq, hp 1 (by decide)]
    refine congrArg Except.ok ?_
    unfold line
    rw [if_neg (by simp), if_neg (by simp)]
    simp only [List.map_cons, List.map_nil, body]
    rw [origin_text here 0 (by decide), origin_text here 1 (by decide)]
    rfl

/-! ## A line -/

/-- UTC -/
def utcPlace : Place where
  time v := match v with
    | .unix s => ⟨s, 0⟩
    | .clock h m s ns => Time.date 1970 1 1 ((3600 * h + 60 * m + s + ns / 10 ^ 9 : ℕ) : ℤ) 0
    | _ => ⟨0, 0⟩
  zone _ := bs "UTC"

theorem utc_local : LocalPlace utcPlace where
  date s := ⟨0, by norm_num, by norm_num, rfl⟩
  time h m s ns := ⟨0, by norm_num, by norm_num, rfl⟩
  zone v := by show (59 : Byte) ∉ bs "UTC" ∧ (10 : Byte) ∉ bs "UTC"; decide +kernel

/-- 2015-07-04 12:34:56.789 -/
def afternoon : Time × ℕ := (⟨1436013296, 0⟩, 789000000)

theorem afternoon_receipt : Receipt afternoon := by unfold Receipt; decide +kernel

/-- C124 applies to the genuine message, and this is its line. -/
example (conv : ℤ → ℕ) : ∃ p, ParsePacket pgnList (Nmea2k.shippedEnv conv) (product (bs "A") (bs "B")) (.ok p) ∧
    (∀ k b, p.data.get k = .chars b → (59 : Byte) ∉ b) ∧
    printText utcPlace pgnList p afternoon false = .ok (bs "2015-07-04T12:34:56.789 6 7 255 126996 Product Information: 0.NMEA 2000 Version = 1281; 1.Product Code = 100" ++
      bs "; 2.Model ID = A; 3.Software Version Code = B; 6.Certification Level = 1; 7.Load Equivalency = 2") := by
  refine ⟨_, parsed_of conv product_first (by norm_num) genuine_data, ?_, ?_⟩
  · have key : ∀ e ∈ ([(0, .u64 1281), (1, .u64 100), (2, .chars (bs "A")), (3, .chars (bs "B")), (4, .nil), (5, .nil), (6, .u64 1),
        (7, .u64 2)] : DataMap), (match e.2 with | .chars b => !b.contains 59 | _ => true) = true := by decide +kernel
    intro k b hb
    have := get_cases (p := ⟨product (bs "A") (bs "B"), 72, [(0, .u64 1281), (1, .u64 100), (2, .chars (bs "A")), (3, .chars (bs "B")), (4, .nil), (5, .nil),
      (6, .u64 1), (7, .u64 2)]⟩) (P := fun v => (match v with | .chars b => !b.contains 59 | _ => true) = true) rfl key k
    rw [hb] at this
    simpa using this
  · rw [product_print _ _ _ _ genuine_print]
    refine congrArg Except.ok ?_
    decide +kernel

end Argo.Log
