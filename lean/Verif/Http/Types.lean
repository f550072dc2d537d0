import Verif.Http.Sniff

set_option autoImplicit false

/-! # The label of every reply (C129) -/

namespace Argo.Http

open Argo
open Argo.Signalk (Str bs)
open Argo.Nmea2k (Pgn)
open Argo.Nmea2k

/-! ## Specification -/

/-- The label of a page. -/
def htmlLabel : String := "text/html; charset=utf-8"

/-- The label of a text. -/
def textLabel : String := "text/plain; charset=utf-8"

/-- A character of a word, for `\b` in a regular expression of JavaScript. -/
def isWordChar (c : Char) : Bool := c.isAlphanum || c == '_'

/-- `w` occurs in the text at the beginning of a word and, if `whole`, at the end of one; `prev` precedes the text. -/
def occurs (whole : Bool) (w : List Char) : Option Char → List Char → Bool
  | _, [] => false
  | prev, c :: r =>
    (!(prev.elim false isWordChar) && w.isPrefixOf (c :: r) &&
      (!whole || !(((c :: r).drop w.length).head?.elim false isWordChar))) || occurs whole w (some c) r

/-- jQuery 3.2.1 (assets/js/jquery.min.js) `ajaxHandleResponses` for `$.get` without a type: what it takes the reply for,
from `contents: {xml: /\bxml\b/, html: /\bhtml/, json: /\bjson\b/}`. -/
def takenFor (ct : String) : Option String :=
  if occurs true "xml".toList none ct.toList then some "xml"
  else if occurs false "html".toList none ct.toList then some "html"
  else if occurs true "json".toList none ct.toList then some "json"
  else none

/-! ## JSON is text -/

theorem text_of_ge {b : Byte} (h : 32 ≤ b.toNat) : binary b = false := by
  unfold binary
  exact decide_eq_false (by omega)

theorem hexLow_text (n : Nat) (h : n < 16) : binary (Json.hexLow n) = false := by
  have : ∀ n : Fin 16, binary (Json.hexLow n.val) = false := by decide +kernel
  exact this ⟨n, h⟩

theorem escByte_text (newer : Bool) (b : Byte) : ∀ x ∈ Json.escByte newer b, binary x = false := by
  have key : ∀ newer : Bool, ∀ n : Fin 256, ∀ x ∈ Json.escByte newer (UInt8.ofNat n.val), binary x = false := by decide +kernel
  have := key newer ⟨b.toNat, b.toNat_lt⟩
  simpa using this

theorem encode_high {c : Char} (hc : 0x80 ≤ c.toNat) : ∀ b ∈ String.utf8EncodeChar c, 0x80 ≤ b.toNat := by
  intro b hb
  have h1 : ¬ c.val.toNat ≤ 127 := by
    have : c.toNat = c.val.toNat := rfl
    omega
  simp only [String.utf8EncodeChar] at hb
  rw [if_neg h1] at hb
  split at hb
  · simp only [List.mem_cons, List.not_mem_nil, or_false] at hb
    rcases hb with rfl | rfl <;> simp only [UInt8.toNat_ofNat', Nat.toUInt8] <;> omega
  · split at hb
    · simp only [List.mem_cons, List.not_mem_nil, or_false] at hb
      rcases hb with rfl | rfl | rfl <;> simp only [UInt8.toNat_ofNat', Nat.toUInt8] <;> omega
    · simp only [List.mem_cons, List.not_mem_nil, or_false] at hb
      rcases hb with rfl | rfl | rfl | rfl <;> simp only [UInt8.toNat_ofNat', Nat.toUInt8] <;> omega

theorem bs_text {s : String} (h : ∀ c ∈ s.toList, 32 ≤ c.toNat) : ∀ b ∈ bs s, binary b = false := by
  intro b hb
  rw [Json.bs_eq] at hb
  obtain ⟨c, hc, hb⟩ := List.mem_flatMap.mp hb
  by_cases h8 : 0x80 ≤ c.toNat
  · exact text_of_ge (by have := encode_high h8 b hb; omega)
  · have hlt : c.toNat < 0x80 := by omega
    have e := Json.encode_ascii (b := UInt8.ofNat c.toNat) (by simp; omega)
    rw [show (UInt8.ofNat c.toNat).toNat = c.toNat by simp; omega, Char.ofNat_toNat] at e
    rw [e] at hb
    rw [List.mem_singleton.mp hb]
    exact text_of_ge (by have := h c hc; simp; omega)

theorem encChars_text (newer : Bool) (n : Nat) (s : Str) : ∀ x ∈ Json.encChars newer n s, binary x = false := by
  induction n generalizing s with
  | zero => intro x hx; cases hx
  | succ n ih =>
    cases s with
    | nil => intro x hx; cases hx
    | cons b r =>
      intro x hx
      simp only [Json.encChars] at hx
      split at hx
      · rcases List.mem_append.mp hx with hx | hx
        · exact escByte_text newer b x hx
        · exact ih _ x hx
      · rename_i hb
        split at hx
        · rcases List.mem_append.mp hx with hx | hx
          · exact (show ∀ x ∈ bs "\\ufffd", binary x = false by decide +kernel) x hx
          · exact ih _ x hx
        · rename_i c hc
          rcases List.mem_append.mp hx with hx | hx
          · split at hx
            · exact (show ∀ x ∈ bs "\\u2028", binary x = false by decide +kernel) x hx
            · split at hx
              · exact (show ∀ x ∈ bs "\\u2029", binary x = false by decide +kernel) x hx
              · rw [(Json.firstChar_split hc).1] at hx
                by_cases h8 : 0x80 ≤ c.toNat
                · exact text_of_ge (by have := encode_high h8 x hx; omega)
                · exfalso
                  have hlt : c.toNat < 0x80 := by omega
                  have e := Json.encode_ascii (b := UInt8.ofNat c.toNat) (by simp; omega)
                  rw [show (UInt8.ofNat c.toNat).toNat = c.toNat by simp; omega, Char.ofNat_toNat] at e
                  have e2 := (Json.firstChar_split hc).2
                  rw [e] at e2
                  simp only [List.cons_append, List.nil_append, List.cons.injEq] at e2
                  apply hb
                  rw [e2.1]
                  simp
                  omega
          · exact ih _ x hx

theorem encString_text (newer : Bool) (s : Str) : ∀ x ∈ Json.encString newer s, binary x = false := by
  intro x hx
  simp only [Json.encString, List.cons_append, List.mem_cons, List.mem_append, List.not_mem_nil, or_false] at hx
  rcases hx with rfl | hx | rfl
  · decide
  · exact encChars_text newer _ _ x hx
  · decide

theorem digit_text {b : Byte} (h : Json.isDigit b = true) : binary b = false := by
  simp only [Json.isDigit, decide_eq_true_eq] at h
  exact text_of_ge (by omega)

theorem digits_text (l : Str) : ∀ x ∈ (Json.digits l).1, binary x = false := fun _ hx =>
  digit_text (List.all_takeWhile (p := Json.isDigit) (l := l) |> List.all_eq_true.mp |> (· _ hx))

theorem intPart_text {l a r : Str} (h : Json.intPart l = some (a, r)) : ∀ x ∈ a, binary x = false := by
  cases l with
  | nil => cases h
  | cons b l =>
    simp only [Json.intPart] at h
    split at h
    · rename_i hb
      cases h
      intro x hx
      rw [List.mem_singleton.mp hx, hb]; decide
    · split at h
      · rename_i hd
        cases h
        intro x hx
        rcases List.mem_cons.mp hx with rfl | hx
        · exact digit_text hd
        · exact digits_text _ x hx
      · cases h

theorem fracPart_text {l a r : Str} (h : Json.fracPart l = some (a, r)) : ∀ x ∈ a, binary x = false := by
  cases l with
  | nil => cases h; intro x hx; cases hx
  | cons b l =>
    simp only [Json.fracPart] at h
    split at h
    · rename_i hb
      split at h
      · cases h
      · cases h
        intro x hx
        rcases List.mem_cons.mp hx with rfl | hx
        · rw [hb]; decide
        · exact digits_text _ x hx
    · cases h; intro x hx; cases hx

theorem expPart_text {l a r : Str} (h : Json.expPart l = some (a, r)) : ∀ x ∈ a, binary x = false := by
  cases l with
  | nil => cases h; intro x hx; cases hx
  | cons b l =>
    simp only [Json.expPart] at h
    split at h
    · rename_i hb
      have tb : binary b = false := by rcases hb with rfl | rfl <;> decide
      cases l with
      | nil => cases h
      | cons s l =>
        simp only at h
        split at h
        · rename_i hs
          have ts : binary s = false := by rcases hs with rfl | rfl <;> decide
          split at h
          · cases h
          · cases h
            intro x hx
            rcases List.mem_cons.mp hx with rfl | hx
            · exact tb
            · rcases List.mem_cons.mp hx with rfl | hx
              · exact ts
              · exact digits_text _ x hx
        · split at h
          · cases h
          · cases h
            intro x hx
            rcases List.mem_cons.mp hx with rfl | hx
            · exact tb
            · exact digits_text _ x hx
    · cases h; intro x hx; cases hx

theorem number_text {t : Str} (h : Json.IsNumber t) : ∀ x ∈ t, binary x = false := by
  unfold Json.IsNumber Json.number at h
  have hm : ∀ x ∈ (match t with
    | b :: r => if b = 45 then ([b], r) else ([], b :: r)
    | [] => ([], []) : Str × Str).1, binary x = false := by
    cases t with
    | nil => intro x hx; cases hx
    | cons b r =>
      intro x hx
      simp only at hx
      split at hx
      · rename_i hb
        rw [List.mem_singleton.mp hx, hb]; decide
      · cases hx
  simp only at h
  split at h
  · cases h
  · rename_i i r1 e1
    split at h
    · cases h
    · rename_i f r2 e2
      split at h
      · cases h
      · rename_i e r3 e3
        have ht := ((Prod.mk.inj (Option.some.inj h)).1).symm
        intro x hx
        rw [ht] at hx
        simp only [List.mem_append] at hx
        rcases hx with ((hx | hx) | hx) | hx
        · exact hm x hx
        · exact intPart_text e1 x hx
        · exact fracPart_text e2 x hx
        · exact expPart_text e3 x hx

/-- The whitespace of the style is text. -/
structure StyleText (st : Json.Style) : Prop where
  line : ∀ d, ∀ x ∈ st.line d, binary x = false
  colon : ∀ x ∈ st.colon, binary x = false

theorem indented_text : StyleText Json.indented := by
  constructor
  · intro d x hx
    rcases List.mem_cons.mp hx with rfl | hx
    · decide
    · rw [List.eq_of_mem_replicate hx]; decide
  · decide

theorem compact_text : StyleText Json.compact := ⟨fun _ _ hx => (nomatch hx), fun _ hx => (nomatch hx)⟩

mutual

theorem layout_text (newer : Bool) {st : Json.Style} (hs : StyleText st) : ∀ (d : Nat) (o : Json.Out), Json.Numbers o →
    ∀ x ∈ Json.layout newer st d o, binary x = false
  | _, .null, _ => by simp only [Json.layout]; decide +kernel
  | _, .bool b, _ => by simp only [Json.layout]; cases b <;> decide +kernel
  | _, .num t, h => by simp only [Json.layout]; exact number_text h
  | _, .str s, _ => by simp only [Json.layout]; exact encString_text newer s
  | _, .arr [], _ => by simp only [Json.layout]; decide
  | d, .arr (v :: l), h => by
    intro x hx
    simp only [Json.layout, List.cons_append, List.mem_cons, List.mem_append, List.not_mem_nil, or_false] at hx
    rcases hx with rfl | ((hx | hx) | hx) | rfl
    · decide
    · exact hs.line _ x hx
    · exact layoutArr_text newer hs (d + 1) (v :: l) h x hx
    · exact hs.line _ x hx
    · decide
  | _, .obj [], _ => by simp only [Json.layout]; decide
  | d, .obj (m :: l), h => by
    intro x hx
    simp only [Json.layout, List.cons_append, List.mem_cons, List.mem_append, List.not_mem_nil, or_false] at hx
    rcases hx with rfl | ((hx | hx) | hx) | rfl
    · decide
    · exact hs.line _ x hx
    · exact layoutObj_text newer hs (d + 1) (m :: l) h x hx
    · exact hs.line _ x hx
    · decide

theorem layoutArr_text (newer : Bool) {st : Json.Style} (hs : StyleText st) : ∀ (d : Nat) (l : List Json.Out), Json.NumbersL l →
    ∀ x ∈ Json.layoutArr newer st d l, binary x = false
  | _, [], _ => by simp [Json.layoutArr]
  | d, [v], h => by simp only [Json.layoutArr]; exact layout_text newer hs d v h.1
  | d, v :: w :: l, h => by
    intro x hx
    simp only [Json.layoutArr, List.mem_cons, List.mem_append] at hx
    rcases hx with (hx | rfl | hx) | hx
    · exact layout_text newer hs d v h.1 x hx
    · decide
    · exact hs.line _ x hx
    · exact layoutArr_text newer hs d (w :: l) h.2 x hx

theorem layoutObj_text (newer : Bool) {st : Json.Style} (hs : StyleText st) : ∀ (d : Nat) (l : List (Str × Json.Out)), Json.NumbersO l →
    ∀ x ∈ Json.layoutObj newer st d l, binary x = false
  | _, [], _ => by simp [Json.layoutObj]
  | d, [(k, v)], h => by
    intro x hx
    simp only [Json.layoutObj, List.mem_cons, List.mem_append] at hx
    rcases hx with (hx | rfl | hx) | hx
    · exact encString_text newer k x hx
    · decide
    · exact hs.colon x hx
    · exact layout_text newer hs d v h.1 x hx
  | d, (k, v) :: w :: l, h => by
    intro x hx
    simp only [Json.layoutObj, List.mem_cons, List.mem_append] at hx
    rcases hx with (((hx | rfl | hx) | hx) | rfl | hx) | hx
    · exact encString_text newer k x hx
    · decide
    · exact hs.colon x hx
    · exact layout_text newer hs d v h.1 x hx
    · decide
    · exact hs.line _ x hx
    · exact layoutObj_text newer hs d (w :: l) h.2 x hx

end

/-! ## XML is text -/

theorem char_text {c : Char} (h : 32 ≤ c.toNat) : ∀ b ∈ String.utf8EncodeChar c, binary b = false := by
  intro b hb
  by_cases h8 : 0x80 ≤ c.toNat
  · exact text_of_ge (by have := encode_high h8 b hb; omega)
  · have e := Json.encode_ascii (b := UInt8.ofNat c.toNat) (by simp; omega)
    rw [show (UInt8.ofNat c.toNat).toNat = c.toNat by simp; omega, Char.ofNat_toNat] at e
    rw [e] at hb
    rw [List.mem_singleton.mp hb]
    exact text_of_ge (by simp; omega)

theorem escChar_ge (c : Char) : ∀ x ∈ Xml.escChar c, 32 ≤ x.toNat := by
  unfold Xml.escChar
  split
  · decide
  split
  · decide
  split
  · decide
  split
  · decide
  split
  · decide
  split
  · decide
  split
  · decide
  split
  · decide
  split
  · rename_i h9 h10 h13 hr
    intro x hx
    rw [List.mem_singleton.mp hx]
    unfold Xml.inRange at hr
    simp only [decide_eq_true_eq] at hr
    omega
  · intro x hx
    rw [List.mem_singleton.mp hx]
    decide

theorem name_ge {n : String} (h : Xml.Named n) : ∀ x ∈ n.toList, 32 ≤ x.toNat := by
  have hc : ∀ c, Xml.isNameChar c = true → 32 ≤ c.toNat := by
    intro c hc
    unfold Xml.isNameChar at hc
    simp only [Bool.or_eq_true, beq_iff_eq] at hc
    rcases hc with (((hc | rfl) | rfl) | rfl) | rfl
    · simp only [Char.isAlphanum, Char.isAlpha, Char.isUpper, Char.isLower, Char.isDigit, Bool.or_eq_true, Bool.and_eq_true,
        decide_eq_true_eq] at hc
      have e : c.toNat = c.val.toNat := rfl
      rcases hc with (⟨h1, _⟩ | ⟨h1, _⟩) | ⟨h1, _⟩ <;>
      · have := UInt32.le_iff_toNat_le.mp h1
        simp at this
        omega
    all_goals decide
  obtain ⟨c, r, e, h1, h2⟩ := h
  intro x hx
  rw [e] at hx
  rcases List.mem_cons.mp hx with rfl | hx
  · apply hc
    unfold Xml.isNameStart at h1
    unfold Xml.isNameChar Char.isAlphanum
    simp only [Bool.or_eq_true, beq_iff_eq] at h1 ⊢
    tauto
  · exact hc x (h2 x hx)

mutual

theorem print_ge : ∀ o : Xml.Out, Xml.Fine o → ∀ x ∈ Xml.print o, 32 ≤ x.toNat
  | .leaf n t, h => by
    intro x hx
    simp only [Xml.print, List.cons_append, List.mem_cons, List.mem_append, List.mem_flatMap, List.not_mem_nil, or_false] at hx
    rcases hx with rfl | ((hx | rfl | ⟨c, _, hx⟩) | rfl | rfl | hx) | rfl
    · decide
    · exact name_ge h.1 x hx
    · decide
    · exact escChar_ge c x hx
    · decide
    · decide
    · exact name_ge h.1 x hx
    · decide
  | .node n l, h => by
    intro x hx
    simp only [Xml.print, List.cons_append, List.mem_cons, List.mem_append, List.not_mem_nil, or_false] at hx
    rcases hx with rfl | ((hx | rfl | hx) | rfl | rfl | hx) | rfl
    · decide
    · exact name_ge h.1 x hx
    · decide
    · exact printAll_ge l h.2 x hx
    · decide
    · decide
    · exact name_ge h.1 x hx
    · decide

theorem printAll_ge : ∀ l : List Xml.Out, Xml.FineAll l → ∀ x ∈ Xml.printAll l, 32 ≤ x.toNat
  | [], _ => by simp [Xml.printAll]
  | o :: l, h => by
    intro x hx
    simp only [Xml.printAll, List.mem_append] at hx
    rcases hx with hx | hx
    · exact print_ge o h.1 x hx
    · exact printAll_ge l h.2 x hx

end

/-! ## Where `LP` stands -/

theorem lp_prefix {p r : Str} (hl : 36 ≤ p.length) (h : (p.drop 34).take 2 ≠ bs "LP") : ((p ++ r).drop 34).take 2 ≠ bs "LP" := by
  rw [List.drop_append_of_le_length (by omega), List.take_append_of_le_length (by simp; omega)]
  exact h

/-- The first bytes of the details of a PGN in JSON. -/
def detailsStart (newer : Bool) (d : Pgn) : Str :=
  (123 :: 10 :: 32 :: 32 :: Json.encString newer (bs "Description")) ++ 58 :: 32 :: Json.encString newer (bs d.description) ++
    (44 :: 10 :: 32 :: 32 :: Json.encString newer (bs "Category"))

theorem object_start (newer : Bool) (k1 a k2 : Str) (v2 : Json.Out) (l : List (Str × Json.Out)) :
    ∃ r, Json.printIndent newer (.obj ((k1, .str a) :: (k2, v2) :: l)) =
      ((123 :: 10 :: 32 :: 32 :: Json.encString newer k1) ++ 58 :: 32 :: Json.encString newer a ++
        (44 :: 10 :: 32 :: 32 :: Json.encString newer k2)) ++ r := by
  cases l with
  | nil =>
    refine ⟨58 :: [32] ++ Json.layout newer Json.indented 1 v2 ++ Json.indented.line 0 ++ [125], ?_⟩
    simp [Json.printIndent, Json.layout, Json.layoutObj, Json.indented, List.replicate]
  | cons m l =>
    refine ⟨58 :: [32] ++ Json.layout newer Json.indented 1 v2 ++ 44 :: Json.indented.line 1 ++
      Json.layoutObj newer Json.indented 1 (m :: l) ++ Json.indented.line 0 ++ [125], ?_⟩
    simp [Json.printIndent, Json.layout, Json.layoutObj, Json.indented, List.replicate]

theorem details_start (newer : Bool) (scale : String → Str) (ord : Json.MapOrder) (d : Pgn) :
    ∃ r, Json.printIndent newer (Json.pgnOut scale ord d) = detailsStart newer d ++ r :=
  object_start newer _ _ _ _ _

theorem details_lp : ∀ newer : Bool, ∀ d ∈ Table.pgnList, 36 ≤ (detailsStart newer d).length ∧
    ((detailsStart newer d).drop 34).take 2 ≠ bs "LP" := by decide +kernel

/-- The first bytes of the index of PGNs. -/
def indexStart (newer : Bool) (d : Pgn) : Str :=
  (91 :: 10 :: 32 :: 32 :: 123 :: 10 :: 32 :: 32 :: 32 :: 32 :: Json.encString newer (bs "Pgn")) ++ 58 :: 32 :: bs (toString d.pgn) ++
    (44 :: 10 :: 32 :: 32 :: 32 :: 32 :: Json.encString newer (bs "Name")) ++ 58 :: 32 :: Json.encString newer (bs d.description)

theorem entry_start (newer : Bool) (k1 a k2 b : Str) (m : Str × Json.Out) (l : List (Str × Json.Out)) (t : List Json.Out) :
    ∃ r, Json.printIndent newer (.arr (.obj ((k1, .num a) :: (k2, .str b) :: m :: l) :: t)) =
      ((91 :: 10 :: 32 :: 32 :: 123 :: 10 :: 32 :: 32 :: 32 :: 32 :: Json.encString newer k1) ++ 58 :: 32 :: a ++
        (44 :: 10 :: 32 :: 32 :: 32 :: 32 :: Json.encString newer k2) ++ 58 :: 32 :: Json.encString newer b) ++ r := by
  cases t with
  | nil =>
    refine ⟨44 :: Json.indented.line 2 ++ Json.layoutObj newer Json.indented 2 (m :: l) ++ Json.indented.line 1 ++ [125] ++
      Json.indented.line 0 ++ [93], ?_⟩
    simp [Json.printIndent, Json.layout, Json.layoutObj, Json.layoutArr, Json.indented, List.replicate]
  | cons v t =>
    refine ⟨44 :: Json.indented.line 2 ++ Json.layoutObj newer Json.indented 2 (m :: l) ++ Json.indented.line 1 ++ [125] ++
      44 :: Json.indented.line 1 ++ Json.layoutArr newer Json.indented 1 (v :: t) ++ Json.indented.line 0 ++ [93], ?_⟩
    simp [Json.printIndent, Json.layout, Json.layoutObj, Json.layoutArr, Json.indented, List.replicate]

theorem index_start (newer : Bool) (i : Nat) (d : Pgn) (t : List Main.IndexEntry) :
    ∃ r, Json.printIndent newer (Json.indexOut (Main.entryFor i d :: t)) = indexStart newer d ++ r :=
  entry_start newer _ _ _ _ _ _ _

theorem index_lp : ∀ newer : Bool, ∀ d ∈ Table.pgnList, 36 ≤ (indexStart newer d).length ∧
    ((indexStart newer d).drop 34).take 2 ≠ bs "LP" := by decide +kernel

/-- The first characters of the details of a PGN in XML. -/
def xmlStart (d : Pgn) : Str :=
  bs "<Pgn><Description>" ++ (d.description.toList.flatMap Xml.escChar).flatMap String.utf8EncodeChar ++
    bs "</Description><Category>"

theorem xml_start {scale : String → List Char} {d : Pgn} {o : Xml.Out} (h : Xml.pgnOut scale d = some o) :
    ∃ r, (Xml.print o).flatMap String.utf8EncodeChar = xmlStart d ++ r := by
  obtain ⟨fs, _, rfl⟩ := Option.map_eq_some_iff.mp h
  generalize hx : ([Xml.Out.leaf "Pgn" (toString d.pgn).toList,
    .leaf "IsKnown" (Xml.boolText d.isKnown), .leaf "Size" (toString d.size).toList,
    .leaf "RepeatingFields" (toString d.repeatingFields).toList] ++ fs) = rest
  refine ⟨((d.category.toList.flatMap Xml.escChar) ++ "</Category>".toList ++ Xml.printAll rest ++ "</Pgn>".toList).flatMap
    String.utf8EncodeChar, ?_⟩
  have e1 : bs "<Pgn><Description>" = "<Pgn><Description>".toList.flatMap String.utf8EncodeChar := Json.bs_eq _
  have e2 : bs "</Description><Category>" = "</Description><Category>".toList.flatMap String.utf8EncodeChar := Json.bs_eq _
  rw [xmlStart, e1, e2, ← List.flatMap_append, ← List.flatMap_append, ← List.flatMap_append]
  congr 1
  rw [← hx]
  simp [Xml.print, Xml.printAll]

theorem xml_lp : ∀ d ∈ Table.pgnList, 36 ≤ (xmlStart d).length ∧ ((xmlStart d).drop 34).take 2 ≠ bs "LP" := by decide +kernel

end Argo.Http
