import Verif.Log.Journal
import Mathlib.Data.List.TakeWhile

set_option autoImplicit false

/-!
# C135: the requests in the log

websocket_server.go:176-181 `loggingHandler` logs every request before it is routed.  The text contains what the client sent, so this
is where a stranger writes into the log.
-/

namespace Argo.Log

open Argo Argo.Main
open Argo.Signalk (Str bs)

/-! ## Model -/

/-- Letters and digits of ASCII. -/
def alnum (b : Byte) : Bool :=
  (decide (48 ≤ b.toNat) && decide (b.toNat ≤ 57)) || (decide (65 ≤ b.toNat) && decide (b.toNat ≤ 90)) ||
    (decide (97 ≤ b.toNat) && decide (b.toNat ≤ 122))

/-- net/http `isTokenTable`: what a method may consist of. -/
def tokenByte (b : Byte) : Bool := alnum b || (bs "!#$%&'*+-.^_`|~").contains b

/-- net/http `parseRequestLine`: the method before the first blank, the target before the second, the protocol after it. -/
def requestLine (line : Str) : Option (Str × Str × Str) :=
  if line.contains 32 then
    let r := (line.dropWhile (· ≠ 32)).drop 1
    if r.contains 32 then some (line.takeWhile (· ≠ 32), r.takeWhile (· ≠ 32), (r.dropWhile (· ≠ 32)).drop 1) else none
  else none

/-- net/url `ishex`, `unhex`. -/
def hexValue (b : Byte) : Option ℕ :=
  if 48 ≤ b.toNat ∧ b.toNat ≤ 57 then some (b.toNat - 48)
  else if 97 ≤ b.toNat ∧ b.toNat ≤ 102 then some (b.toNat - 97 + 10)
  else if 65 ≤ b.toNat ∧ b.toNat ≤ 70 then some (b.toNat - 65 + 10)
  else none

/-- net/url `unescape` in the mode `encodePath`; `none` is an error. -/
def unescapePath : Str → Option Str
  | 37 :: x :: y :: r =>
    match hexValue x, hexValue y with
    | some h, some l => (unescapePath r).map (UInt8.ofNat (16 * h + l) :: ·)
    | _, _ => none
  | 37 :: _ => none
  | b :: r => (unescapePath r).map (b :: ·)
  | [] => some []

/-- net/url `shouldEscape` in the mode `encodePath`, negated. -/
def keptInPath (b : Byte) : Bool := alnum b || (bs "-_.~$&+,/:;=@").contains b

/-- A digit of `"0123456789ABCDEF"`. -/
def hexDigit (n : ℕ) : Byte := if n < 10 then UInt8.ofNat (48 + n) else UInt8.ofNat (55 + n)

/-- net/url `escape` in the mode `encodePath`. -/
def escapePath (s : Str) : Str := s.flatMap fun b => if keptInPath b then [b] else [37, hexDigit (b.toNat / 16), hexDigit (b.toNat % 16)]

/-- net/url `validEncoded` (`validEncodedPath`). -/
def validEncoded (s : Str) : Bool := s.all fun b => (bs "!$&'()*+,;=:@[]%").contains b || keptInPath b

/-- net/url `URL`, without the fields that stay empty when the target is a path. -/
structure Url where
  path : Str
  rawPath : Str
  forceQuery : Bool
  rawQuery : Str

/-- net/url `stringContainsCTLByte` -/
def control (b : Byte) : Bool := decide (b.toNat < 32) || b == 127

/-- net/url `URL.setPath` -/
def setPath (p : Str) (force : Bool) (query : Str) : Option Url :=
  (unescapePath p).map fun path => ⟨path, if p = escapePath path then [] else p, force, query⟩

/-- net/url `ParseRequestURI` of a target that is a path or an asterisk.  From Go 1.12 on (`ctl`) control characters are an error. -/
def parseTarget (ctl : Bool) (t : Str) : Option Url :=
  if ctl && t.any control then none
  else if t = bs "*" then some ⟨bs "*", [], false, []⟩
  else if t.getLast? = some 63 ∧ t.count 63 = 1 then setPath t.dropLast true []
  else setPath (t.takeWhile (· ≠ 63)) false ((t.dropWhile (· ≠ 63)).drop 1)

/-- net/url `URL.EscapedPath` -/
def Url.escapedPath (u : Url) : Str :=
  if u.rawPath ≠ [] && validEncoded u.rawPath && unescapePath u.rawPath == some u.path then u.rawPath
  else if u.path = bs "*" then bs "*"
  else escapePath u.path

/-- net/url `URL.String` without scheme, host and fragment, for a path that begins with a slash (or is an asterisk). -/
def Url.string (u : Url) : Str := u.escapedPath ++ (if u.forceQuery || u.rawQuery ≠ [] then 63 :: u.rawQuery else [])

/-- websocket_server.go:176-181 `loggingHandler`, behind net/http: what the server logs of a request that begins with this line.  `ok`:
the protocol and the headers are such that net/http hands the request over (it answers 400 otherwise).  `absolute`: the address as
printed if the target is neither a path nor an asterisk, which is not modelled.  `OPTIONS *` is answered by net/http itself. -/
def requestLog (ctl ok : Bool) (absolute : Str → Option Str) (addr line : Str) : Option (Level × Str) :=
  match requestLine line with
  | none => none
  | some (m, t, _) =>
    if !(m ≠ [] && m.all tokenByte && ok) then none
    else if t = bs "*" ∧ m = bs "OPTIONS" then none
    else
      ((if t = bs "*" ∨ t.head? = some 47 then (parseTarget ctl t).map Url.string else absolute t).map
        fun u => (.notice, addr ++ bs " " ++ m ++ bs " " ++ u))

/-! ## Specification -/

/-- `x` is the hexadecimal digit of value `n`, in either case. -/
def HexDigit (x : Byte) (n : ℕ) : Prop := (bs "0123456789ABCDEF")[n]? = some x ∨ (bs "0123456789abcdef")[n]? = some x

/-- Percent-decoding (RFC 3986, 2.1). -/
inductive Decodes : Str → Str → Prop where
  | nil : Decodes [] []
  | plain {b : Byte} {s p : Str} : b ≠ 37 → Decodes s p → Decodes (b :: s) (b :: p)
  | escape {x y : Byte} {h l : ℕ} {s p : Str} : HexDigit x h → HexDigit y l → Decodes s p →
      Decodes (37 :: x :: y :: s) (UInt8.ofNat (16 * h + l) :: p)

/-- What is before the first question mark of an address. -/
def pathPart (t : Str) : Str := t.takeWhile (· ≠ 63)

/-- What is after the first question mark, if there is one. -/
def queryPart (t : Str) : Option Str := if (63 : Byte) ∈ t then some ((t.dropWhile (· ≠ 63)).drop 1) else none

/-- `u` says the same as the target `t`: it decodes to the same path and has the same query; its path is printable, and it has no bytes
that were not in the target but those of the path and the question mark. -/
def Printed (t u : Str) : Prop :=
  (∃ p, Decodes (pathPart t) p ∧ Decodes (pathPart u) p) ∧ queryPart u = queryPart t ∧ (∀ b ∈ pathPart u, 33 ≤ b.toNat ∧ b.toNat ≤ 126) ∧
    ∀ b ∈ u, b ∈ pathPart u ∨ b = 63 ∨ b ∈ t

/-- A byte of a method: RFC 7230, 3.2.6, `tchar`. -/
def MethodByte (b : Byte) : Prop :=
  (48 ≤ b.toNat ∧ b.toNat ≤ 57) ∨ (65 ≤ b.toNat ∧ b.toNat ≤ 90) ∨ (97 ≤ b.toNat ∧ b.toNat ≤ 122) ∨ b ∈ bs "!#$%&'*+-.^_`|~"

/-! ## Proofs -/

theorem hex_iff (x : Byte) (n : ℕ) : hexValue x = some n ↔ HexDigit x n := by
  have key : ∀ i : Fin 256, ∀ k : Fin 16, hexValue (UInt8.ofNat i.val) = some k.val ↔
      ((bs "0123456789ABCDEF")[k.val]? = some (UInt8.ofNat i.val) ∨ (bs "0123456789abcdef")[k.val]? = some (UInt8.ofNat i.val)) := by
    decide +kernel
  have e1 : (bs "0123456789ABCDEF").length = 16 := by decide +kernel
  have e2 : (bs "0123456789abcdef").length = 16 := by decide +kernel
  by_cases hn : n < 16
  · have := key ⟨x.toNat, x.toNat_lt⟩ ⟨n, hn⟩
    simpa [HexDigit] using this
  · constructor
    · intro h
      exfalso
      unfold hexValue at h
      split_ifs at h <;> (injection h with h; omega)
    · rintro (h | h)
      · rw [List.getElem?_eq_none (by omega)] at h; cases h
      · rw [List.getElem?_eq_none (by omega)] at h; cases h

theorem unescape_iff (s : Str) : ∀ p, unescapePath s = some p ↔ Decodes s p := by
  induction s using unescapePath.induct with
  | case1 x y r h l hy hx ih =>
    intro p
    simp only [unescapePath, hx, hy]
    constructor
    · intro hp
      obtain ⟨q, hq, rfl⟩ := Option.map_eq_some_iff.mp hp
      exact .escape ((hex_iff _ _).1 hx) ((hex_iff _ _).1 hy) ((ih q).1 hq)
    · intro hp
      cases hp with
      | plain h _ => exact absurd rfl h
      | escape h1 h2 h3 =>
        rw [← hex_iff, hx] at h1; rw [← hex_iff, hy] at h2
        cases h1; cases h2
        rw [(ih _).2 h3]; rfl
  | case2 x y r hn =>
    intro p
    simp only [unescapePath]
    constructor
    · intro hp
      cases hp
    · intro hp
      cases hp with
      | plain h _ => exact absurd rfl h
      | escape h1 h2 h3 => exact (hn _ _ ((hex_iff _ _).2 h1) ((hex_iff _ _).2 h2)).elim
  | case3 r hr =>
    intro p
    constructor
    · intro hp
      rw [unescapePath.eq_def] at hp
      match r, hr, hp with
      | [], _, hp => simp at hp
      | [a], _, hp => simp at hp
      | a :: b :: c, hr, _ => exact absurd rfl (hr a b c)
    · intro hp
      cases hp with
      | plain h _ => exact absurd rfl h
      | escape h1 h2 h3 => exact absurd rfl (hr _ _ _)
  | case4 b r h1 h2 ih =>
    intro p
    have hb : b ≠ 37 := by
      rintro rfl
      exact h2 rfl
    rw [unescapePath.eq_def]
    split
    · rename_i heq; cases heq; exact absurd rfl hb
    · rename_i heq; cases heq; exact absurd rfl hb
    · rename_i heq
      cases heq
      constructor
      · intro hp
        obtain ⟨q, hq, rfl⟩ := Option.map_eq_some_iff.mp hp
        exact .plain hb ((ih q).1 hq)
      · intro hp
        cases hp with
        | plain _ h => rw [(ih _).2 h]; rfl
        | escape => exact absurd rfl hb
    · rename_i heq; cases heq
  | case5 =>
    intro p
    simp only [unescapePath]
    constructor
    · intro h; cases h; exact .nil
    · intro h; cases h; rfl

/-- A text says one thing only. -/
theorem decodes_unique {s p q : Str} (h1 : Decodes s p) (h2 : Decodes s q) : p = q := by
  rw [← unescape_iff] at h1 h2
  rw [h1] at h2
  exact Option.some.inj h2

theorem hex_value : ∀ n < 16, hexValue (hexDigit n) = some n := by decide +kernel

theorem byte_facts (b : Byte) : (keptInPath b = true → b ≠ 37 ∧ b ≠ 63 ∧ 33 ≤ b.toNat ∧ b.toNat ≤ 126) ∧
    (((bs "!$&'()*+,;=:@[]%").contains b || keptInPath b) = true → b ≠ 63 ∧ 33 ≤ b.toNat ∧ b.toNat ≤ 126) := by
  have key : ∀ i : Fin 256, (keptInPath (UInt8.ofNat i.val) = true → UInt8.ofNat i.val ≠ 37 ∧ UInt8.ofNat i.val ≠ 63 ∧
      33 ≤ (UInt8.ofNat i.val).toNat ∧ (UInt8.ofNat i.val).toNat ≤ 126) ∧
    (((bs "!$&'()*+,;=:@[]%").contains (UInt8.ofNat i.val) || keptInPath (UInt8.ofNat i.val)) = true → UInt8.ofNat i.val ≠ 63 ∧
      33 ≤ (UInt8.ofNat i.val).toNat ∧ (UInt8.ofNat i.val).toNat ≤ 126) := by decide +kernel
  have := key ⟨b.toNat, b.toNat_lt⟩
  simpa using this

theorem hex_facts : ∀ n < 16, hexDigit n ≠ 63 ∧ 33 ≤ (hexDigit n).toNat ∧ (hexDigit n).toNat ≤ 126 := by decide +kernel

/-- What `escapePath` writes is printable, has no question mark, and says what it was given. -/
theorem escape_printable (p : Str) : ∀ b ∈ escapePath p, b ≠ 63 ∧ 33 ≤ b.toNat ∧ b.toNat ≤ 126 := by
  intro b hb
  unfold escapePath at hb
  obtain ⟨c, _, hc⟩ := List.mem_flatMap.mp hb
  split at hc
  · rename_i hk
    rw [List.mem_singleton] at hc
    subst hc
    exact ((byte_facts b).1 hk).2
  · have := c.toNat_lt
    simp only [List.mem_cons, List.not_mem_nil, or_false] at hc
    rcases hc with rfl | rfl | rfl
    · decide
    · exact hex_facts _ (by omega)
    · exact hex_facts _ (by omega)

theorem escape_decodes (p : Str) : Decodes (escapePath p) p := by
  induction p with
  | nil => exact .nil
  | cons b p ih =>
    have he : escapePath (b :: p) = (if keptInPath b then [b] else [37, hexDigit (b.toNat / 16), hexDigit (b.toNat % 16)]) ++ escapePath p := rfl
    rw [he]
    have hlt := b.toNat_lt
    split
    · rename_i hk
      exact .plain ((byte_facts b).1 hk).1 ih
    · have hb : b = UInt8.ofNat (16 * (b.toNat / 16) + b.toNat % 16) := by
        rw [show 16 * (b.toNat / 16) + b.toNat % 16 = b.toNat by omega]
        simp
      have := Decodes.escape ((hex_iff _ _).1 (hex_value (b.toNat / 16) (by omega))) ((hex_iff _ _).1 (hex_value (b.toNat % 16) (by omega))) ih
      rw [← hb] at this
      exact this

theorem cut_at {c : Byte} {a : Str} (h : c ∉ a) (r : Str) :
    (a ++ c :: r).takeWhile (· ≠ c) = a ∧ ((a ++ c :: r).dropWhile (· ≠ c)).drop 1 = r := by
  have h1 : ∀ b ∈ a, (decide (b ≠ c)) = true := by
    intro b hb
    simp only [decide_eq_true_eq]
    rintro rfl
    exact h hb
  refine ⟨?_, ?_⟩
  · rw [List.takeWhile_append_of_pos h1]; simp
  · rw [List.dropWhile_append_of_pos h1]; simp

theorem request_parts {m t proto : Str} (hm : (32 : Byte) ∉ m) (ht : (32 : Byte) ∉ t) :
    requestLine (m ++ 32 :: (t ++ 32 :: proto)) = some (m, t, proto) := by
  obtain ⟨a1, a2⟩ := cut_at hm (t ++ 32 :: proto)
  obtain ⟨b1, b2⟩ := cut_at ht proto
  unfold requestLine
  simp only [a1, a2, b1, b2]
  simp

/-- An address in two parts. -/
theorem parts_of (t : Str) : (63 : Byte) ∉ pathPart t ∧
    ((t = pathPart t ∧ (63 : Byte) ∉ t ∧ queryPart t = none) ∨ ∃ q, t = pathPart t ++ 63 :: q ∧ queryPart t = some q) := by
  have hn : (63 : Byte) ∉ pathPart t := by
    intro h
    have := List.mem_takeWhile_imp h
    simp at this
  refine ⟨hn, ?_⟩
  by_cases h : (63 : Byte) ∈ t
  · right
    have h1 := List.takeWhile_append_dropWhile (p := fun b : Byte => decide (b ≠ 63)) (l := t)
    cases hd : t.dropWhile (fun b : Byte => decide (b ≠ 63)) with
    | nil =>
      have := List.dropWhile_eq_nil_iff.mp hd 63 h
      simp at this
    | cons b r =>
      have hb : b = 63 := by
        have := List.head_dropWhile_not (fun b : Byte => decide (b ≠ 63)) (l := t) (by rw [hd]; simp)
        simp only [hd, List.head_cons] at this
        simpa using this
      subst hb
      refine ⟨r, ?_, ?_⟩
      · rw [hd] at h1; exact h1.symm
      · unfold queryPart
        rw [if_pos h, hd]; rfl
  · left
    refine ⟨?_, h, if_neg h⟩
    unfold pathPart
    symm
    rw [List.takeWhile_eq_self_iff]
    intro b hb
    simp only [decide_eq_true_eq]
    rintro rfl
    exact h hb

theorem parts_append {a : Str} (h : (63 : Byte) ∉ a) (q : Str) : pathPart (a ++ 63 :: q) = a ∧ queryPart (a ++ 63 :: q) = some q := by
  obtain ⟨h1, h2⟩ := cut_at h q
  exact ⟨h1, by unfold queryPart; rw [if_pos (by simp), h2]⟩

theorem escaped_path {rest p : Str} (hs : rest.head? = some 47) (h : unescapePath rest = some p) (force : Bool) (q : Str) :
    let e := Url.escapedPath ⟨p, if rest = escapePath p then [] else rest, force, q⟩
    Decodes e p ∧ ∀ b ∈ e, b ≠ 63 ∧ 33 ≤ b.toNat ∧ b.toNat ≤ 126 := by
  intro e
  have hd := (unescape_iff rest p).1 h
  have hstar : p ≠ bs "*" := by
    rintro rfl
    have hb : bs "*" = [42] := by decide +kernel
    rw [hb] at hd
    generalize hq : ([42] : Str) = q at hd
    cases hd with
    | nil => simp at hs
    | plain _ _ =>
      simp only [List.head?_cons, Option.some.injEq] at hs
      subst hs
      cases hq
    | escape => simp at hs
  have he : e = if (if rest = escapePath p then [] else rest) ≠ [] && validEncoded (if rest = escapePath p then [] else rest) &&
      unescapePath (if rest = escapePath p then [] else rest) == some p then (if rest = escapePath p then [] else rest) else escapePath p := by
    show Url.escapedPath _ = _
    unfold Url.escapedPath
    simp only [if_neg hstar]
  rw [he]
  by_cases hr : rest = escapePath p
  · rw [if_pos hr]
    exact ⟨escape_decodes p, escape_printable p⟩
  rw [if_neg hr]
  split
  · rename_i hc
    simp only [Bool.and_eq_true, beq_iff_eq] at hc
    · refine ⟨hd, fun b hb => ?_⟩
      have := hc.1.2
      unfold validEncoded at this
      exact (byte_facts b).2 (List.all_eq_true.mp this b hb)
  · exact ⟨escape_decodes p, escape_printable p⟩

theorem count_split {a q : Str} (h : (63 : Byte) ∉ a) : (a ++ 63 :: q).getLast? = some 63 ∧ (a ++ 63 :: q).count 63 = 1 ↔ q = [] := by
  have hc : (a ++ 63 :: q).count 63 = 1 + q.count 63 := by
    rw [List.count_append, List.count_eq_zero.mpr h, List.count_cons_self]; omega
  rw [hc]
  constructor
  · rintro ⟨h1, h2⟩
    have hz : q.count 63 = 0 := by omega
    rw [List.count_eq_zero] at hz
    cases q using List.reverseRecOn with
    | nil => rfl
    | append_singleton r b =>
      have : (a ++ 63 :: (r ++ [b])).getLast? = some b := by
        rw [show a ++ 63 :: (r ++ [b]) = (a ++ 63 :: r) ++ [b] by simp, List.getLast?_concat]
      rw [this] at h1
      cases h1
      simp at hz
  · rintro rfl
    simp

theorem head_path {t : Str} (h : t.head? = some 47) : (pathPart t).head? = some 47 := by
  cases t with
  | nil => cases h
  | cons b t =>
    simp only [List.head?_cons, Option.some.injEq] at h
    subst h
    simp [pathPart]

theorem target_cases {t : Str} (ht : t.head? = some 47) :
    (parseTarget false t = none ↔ ¬ ∃ p, Decodes (pathPart t) p) ∧ ∀ u, parseTarget false t = some u → Printed t u.string := by
  have hstar : t ≠ bs "*" := by
    rintro rfl
    exact absurd ht (by decide +kernel)
  obtain ⟨hn, hq⟩ := parts_of t
  have hh := head_path ht
  have hp : ∃ force q, parseTarget false t = setPath (pathPart t) force q ∧
      ((q = [] ∧ force = false ∧ queryPart t = none) ∨ ((force || q ≠ []) = true ∧ queryPart t = some q ∧ ∀ b ∈ q, b ∈ t)) := by
    unfold parseTarget
    simp only [Bool.false_and, Bool.false_eq_true, if_false, if_neg hstar]
    rcases hq with ⟨h1, h2, h3⟩ | ⟨q, h1, h2⟩
    · refine ⟨false, [], ?_, .inl ⟨rfl, rfl, h3⟩⟩
      rw [if_neg]
      · have hd : t.dropWhile (fun b : Byte => decide (b ≠ 63)) = [] := by
          rw [List.dropWhile_eq_nil_iff]
          intro b hb
          simp only [decide_eq_true_eq]
          rintro rfl
          exact h2 hb
        rw [hd]
        rfl
      · rintro ⟨h, _⟩
        exact h2 (List.mem_of_getLast? h)
    · by_cases hq0 : q = []
      · subst hq0
        refine ⟨true, [], ?_, .inr ⟨rfl, h2, by simp⟩⟩
        have := (count_split (q := []) hn).2 rfl
        rw [← h1] at this
        rw [if_pos this]
        congr 1
        conv_lhs => rw [h1]
        simp
      · refine ⟨false, q, ?_, .inr ⟨by simpa using hq0, h2, fun b hb => by rw [h1]; simp [hb]⟩⟩
        have : ¬ (t.getLast? = some 63 ∧ t.count 63 = 1) := by
          rw [h1, count_split hn]; exact hq0
        rw [if_neg this]
        have hc := (cut_at hn q).2
        rw [← h1] at hc
        rw [hc]
        rfl
  obtain ⟨force, q, hp, hfq⟩ := hp
  rw [hp]
  unfold setPath
  cases hu : unescapePath (pathPart t) with
  | none =>
    refine ⟨⟨fun _ => ?_, fun _ => rfl⟩, fun u h => by cases h⟩
    rintro ⟨p, h⟩
    rw [← unescape_iff, hu] at h
    cases h
  | some p =>
    have hd := (unescape_iff _ p).1 hu
    refine ⟨⟨fun h => by simp at h, fun h => absurd ⟨p, hd⟩ h⟩, ?_⟩
    intro u h
    simp only [Option.map_some, Option.some.injEq] at h
    subst h
    obtain ⟨e1, e2⟩ := escaped_path hh hu force q
    have e3 : (63 : Byte) ∉ Url.escapedPath ⟨p, if pathPart t = escapePath p then [] else pathPart t, force, q⟩ := fun h => (e2 _ h).1 rfl
    generalize he : Url.escapedPath ⟨p, if pathPart t = escapePath p then [] else pathPart t, force, q⟩ = e at e1 e2 e3
    unfold Url.string
    rw [he]
    simp only
    rcases hfq with ⟨rfl, rfl, h3⟩ | ⟨h1, h2, h3⟩
    · obtain ⟨_, g | ⟨q, g, _⟩⟩ := parts_of e
      · simp only [ne_eq, not_true_eq_false, decide_false, Bool.or_self, Bool.false_eq_true, if_false, List.append_nil]
        refine ⟨⟨p, hd, by rw [← g.1]; exact e1⟩, by rw [h3]; exact g.2.2, fun b hb => ?_, fun b hb => .inl (by rw [← g.1]; exact hb)⟩
        rw [← g.1] at hb
        exact (e2 b hb).2
      · exact absurd (by rw [g]; simp) e3
    · obtain ⟨g1, g2⟩ := parts_append e3 q
      rw [if_pos h1]
      refine ⟨⟨p, hd, by rw [g1]; exact e1⟩, by rw [g2, h2], fun b hb => ?_, fun b hb => ?_⟩
      · rw [g1] at hb
        exact (e2 b hb).2
      · rw [g1]
        rcases List.mem_append.mp hb with h | h
        · exact .inl h
        · rcases List.mem_cons.mp h with rfl | h
          · exact .inr (.inl rfl)
          · exact .inr (.inr (h3 b h))

theorem star_eq : bs "*" = [42] := by decide +kernel

theorem target_iff (ctl : Bool) {t : Str} (ht : t.head? = some 47 ∨ t = bs "*") :
    (parseTarget ctl t = none ↔ (ctl = true ∧ ∃ b ∈ t, b.toNat < 32 ∨ b = 127) ∨ ¬ ∃ p, Decodes (pathPart t) p) ∧
      ∀ u, parseTarget ctl t = some u → Printed t u.string ∧ (ctl = true → ∀ b ∈ t, 32 ≤ b.toNat ∧ b ≠ 127) := by
  have key : (parseTarget false t = none ↔ ¬ ∃ p, Decodes (pathPart t) p) ∧ ∀ u, parseTarget false t = some u → Printed t u.string := by
    rcases ht with ht | rfl
    · exact target_cases ht
    · have h0 : parseTarget false (bs "*") = some ⟨bs "*", [], false, []⟩ := by
        unfold parseTarget
        rw [if_neg (by simp), if_pos rfl]
      have hd : Decodes (pathPart (bs "*")) (bs "*") := by
        rw [star_eq]
        exact .plain (by decide) .nil
      rw [h0]
      refine ⟨⟨fun h => by simp at h, fun h => absurd ⟨_, hd⟩ h⟩, ?_⟩
      intro u h
      cases h
      have hs : Url.string ⟨bs "*", [], false, []⟩ = bs "*" := by decide +kernel
      rw [hs]
      exact ⟨⟨_, hd, hd⟩, rfl, by decide +kernel, fun b hb => .inr (.inr hb)⟩
  have hc : ∀ b : Byte, control b = true ↔ b.toNat < 32 ∨ b = 127 := by intro b; simp [control]
  by_cases hany : ctl = true ∧ ∃ b ∈ t, b.toNat < 32 ∨ b = 127
  · have : parseTarget ctl t = none := by
      unfold parseTarget
      rw [if_pos]
      obtain ⟨h1, b, hb, h2⟩ := hany
      simp only [h1, Bool.true_and, List.any_eq_true]
      exact ⟨b, hb, (hc b).2 h2⟩
    rw [this]
    exact ⟨⟨fun _ => .inl hany, fun _ => rfl⟩, fun u h => by cases h⟩
  · have : parseTarget ctl t = parseTarget false t := by
      have hf : (ctl && t.any control) = false := by
        cases ctl with
        | false => rfl
        | true =>
          simp only [Bool.true_and, Bool.eq_false_iff]
          intro h
          obtain ⟨b, hb, h2⟩ := List.any_eq_true.mp h
          exact hany ⟨rfl, b, hb, (hc b).1 h2⟩
      unfold parseTarget
      rw [hf]
      rfl
    rw [this]
    refine ⟨by rw [key.1]; exact ⟨.inr, fun h => h.resolve_left hany⟩, fun u h => ⟨key.2 u h, ?_⟩⟩
    intro h1 b hb
    constructor
    · by_contra h2; exact hany ⟨h1, b, hb, .inl (by omega)⟩
    · intro h2; exact hany ⟨h1, b, hb, .inr h2⟩

theorem method_iff (b : Byte) : tokenByte b = true ↔ MethodByte b := by
  unfold tokenByte alnum MethodByte
  simp only [Bool.or_eq_true, Bool.and_eq_true, decide_eq_true_eq, List.contains_iff_mem]
  tauto

/-! ## Theorems -/

section
variable {ctl ok : Bool} {absolute : Str → Option Str} {addr m t proto : Str}

/-- **C135** (which requests): a request for a path is logged unless net/http refuses it or answers it itself: its method is not one,
its path cannot be decoded, it has control characters (and net/http looks), its protocol or headers are not accepted, or it is
`OPTIONS *`. -/
theorem C135_which (hm : (32 : Byte) ∉ m) (ht : (32 : Byte) ∉ t) (horigin : t.head? = some 47 ∨ t = bs "*") :
    requestLog ctl ok absolute addr (m ++ 32 :: (t ++ 32 :: proto)) = none ↔
      ok = false ∨ m = [] ∨ (∃ b ∈ m, ¬ MethodByte b) ∨ (t = bs "*" ∧ m = bs "OPTIONS") ∨
        (ctl = true ∧ ∃ b ∈ t, b.toNat < 32 ∨ b = 127) ∨ ¬ ∃ p, Decodes (pathPart t) p := by
  unfold requestLog
  rw [request_parts hm ht]
  simp only
  have horigin' : t = bs "*" ∨ t.head? = some 47 := horigin.symm
  rw [if_pos horigin']
  by_cases h1 : ok = false ∨ m = [] ∨ ∃ b ∈ m, ¬ MethodByte b
  · rw [if_pos]
    · simp only [true_iff]
      rcases h1 with h | h | h
      exacts [.inl h, .inr (.inl h), .inr (.inr (.inl h))]
    · rcases h1 with rfl | rfl | ⟨b, hb, h⟩
      · simp
      · simp
      · have : m.all tokenByte = false := by
          rw [Bool.eq_false_iff]
          intro hall
          exact h ((method_iff b).1 (List.all_eq_true.mp hall b hb))
        simp [this]
  · have h2 : (!(decide (m ≠ []) && m.all tokenByte && ok)) = false := by
      simp only [not_or, not_exists, not_and, not_not, Bool.not_eq_false] at h1
      have : m.all tokenByte = true := List.all_eq_true.mpr fun b hb => (method_iff b).2 (h1.2.2 b hb)
      simp [h1.1, h1.2.1, this]
    rw [h2]
    simp only [Bool.false_eq_true, if_false]
    by_cases h3 : t = bs "*" ∧ m = bs "OPTIONS"
    · rw [if_pos h3]; simp only [true_iff]; exact .inr (.inr (.inr (.inl h3)))
    · rw [if_neg h3, Option.map_eq_none_iff, Option.map_eq_none_iff, (target_iff ctl horigin).1]
      constructor
      · exact fun h => .inr (.inr (.inr (.inr h)))
      · rintro (h | h | h | h | h)
        exacts [absurd (.inl h) h1, absurd (.inr (.inl h)) h1, absurd (.inr (.inr h)) h1, absurd h h3, h]

/-- **C135** (what is logged): for every request for a path that is logged, the entry is one line in three parts: the address of the
client, the method, and an address that names the same path and the same query; if net/http refuses control characters, there are none in
it; and it is no line of the loop (C128). -/
theorem C135_entry (ha : (32 : Byte) ∉ addr ∧ (10 : Byte) ∉ addr) (hm : (32 : Byte) ∉ m) (ht : (32 : Byte) ∉ t)
    (hlf : (10 : Byte) ∉ m ++ t) (horigin : t.head? = some 47 ∨ t = bs "*") {x : Level × Str}
    (hx : requestLog ctl ok absolute addr (m ++ 32 :: (t ++ 32 :: proto)) = some x) :
    ∃ u, x = (.notice, addr ++ 32 :: (m ++ 32 :: u)) ∧ (32 : Byte) ∉ u ∧ Printed t u ∧
      (ctl = true → ∀ b ∈ u, 32 < b.toNat ∧ b ≠ 127) ∧
      ∀ (time : Signalk.Time × ℕ) (id : ℕ) (log : Str), time.2 < 10 ^ 9 →
        Other ⟨x.1, time, id, x.2⟩ ∧ (10 : Byte) ∉ Record.format ⟨x.1, time, id, x.2⟩ ∧
        infoTexts (Record.bytes ⟨x.1, time, id, x.2⟩ ++ log) = infoTexts log := by
  unfold requestLog at hx
  rw [request_parts hm ht] at hx
  simp only at hx
  have horigin' : t = bs "*" ∨ t.head? = some 47 := horigin.symm
  rw [if_pos horigin'] at hx
  split at hx
  · cases hx
  split at hx
  · cases hx
  rw [Option.map_map] at hx
  obtain ⟨u, hu, rfl⟩ := Option.map_eq_some_iff.mp hx
  obtain ⟨hp, hctl⟩ := (target_iff ctl horigin).2 u hu
  have hblank : bs " " = [32] := by decide +kernel
  have htext : addr ++ bs " " ++ m ++ bs " " ++ u.string = addr ++ 32 :: (m ++ 32 :: u.string) := by rw [hblank]; simp
  have hbytes : ∀ c : Byte, c.toNat ≤ 32 → c ∉ t → c ∉ u.string := by
    intro c hc hct hcu
    rcases hp.2.2.2 c hcu with h | rfl | h
    · have := hp.2.2.1 c h; omega
    · exact absurd hc (by decide)
    · exact hct h
  have h10 : (10 : Byte) ∉ m ∧ (10 : Byte) ∉ t := by simpa [not_or] using hlf
  refine ⟨u.string, ?_, hbytes 32 (by decide) ht, hp, ?_, ?_⟩
  · simp only [Function.comp]; rw [htext]
  · intro hc b hb
    rcases hp.2.2.2 b hb with h | rfl | h
    · have := hp.2.2.1 b h
      refine ⟨by omega, ?_⟩
      rintro rfl
      exact absurd this.2 (by decide)
    · decide
    · obtain ⟨h1, h2⟩ := hctl hc b h
      refine ⟨?_, h2⟩
      rcases Nat.lt_or_ge 32 b.toNat with h | h
      · exact h
      · exfalso
        have : b = 32 := by
          apply UInt8.toNat_inj.mp
          show b.toNat = 32
          omega
        subst this
        exact ht (by assumption)
  · intro time id log htime
    have hno : (10 : Byte) ∉ addr ++ bs " " ++ m ++ bs " " ++ u.string := by
      rw [htext]
      have := hbytes 10 (by decide) h10.2
      have e : (10 : Byte) ≠ 32 := by decide
      simp only [List.mem_append, List.mem_cons, not_or]
      exact ⟨ha.2, e, h10.1, e, this⟩
    have hother : Other ⟨.notice, time, id, addr ++ bs " " ++ m ++ bs " " ++ u.string⟩ := ⟨by simp, .inl hno⟩
    refine ⟨hother, ?_, read_other hother htime log⟩
    simp only [Function.comp]
    rw [Record.format_eq]
    simp only [List.mem_append, not_or] at hno ⊢
    exact ⟨head_no_lf htime, hno, reset_no_lf⟩

end

/-- **C135** is false of earlier versions of net/url (control characters): whatever a client puts behind the question mark is written to the
log as it is, with escape sequences of the terminal and carriage returns. -/
theorem C135_control_false (absolute : Str → Option Str) (addr v : Str) (h : (32 : Byte) ∉ v) :
    requestLog false true absolute addr (bs "GET" ++ 32 :: ((47 :: 63 :: v) ++ 32 :: bs "HTTP/1.1")) =
      some (.notice, addr ++ bs " " ++ bs "GET" ++ bs " " ++ 47 :: 63 :: v) := by
  unfold requestLog
  rw [request_parts (by decide +kernel) (by simpa using h)]
  have h1 : (!(decide (bs "GET" ≠ []) && (bs "GET").all tokenByte && true)) = false := by decide +kernel
  have h2 : ¬ (47 :: 63 :: v = bs "*" ∧ bs "GET" = bs "OPTIONS") := by
    rw [star_eq]; rintro ⟨h, _⟩; cases h
  simp only [h1, Bool.false_eq_true, if_false, if_neg h2]
  rw [if_pos (.inr rfl)]
  have hn : (63 : Byte) ∉ ([47] : Str) := by decide
  have hs : setPath [47] = fun f q => some ⟨[47], [], f, q⟩ := by
    funext f q
    unfold setPath
    have e1 : unescapePath [47] = some [47] := by decide +kernel
    have e2 : escapePath [47] = [47] := by decide +kernel
    simp [e1, e2]
  have hp : parseTarget false (47 :: 63 :: v) = some ⟨[47], [], decide (v = []), v⟩ := by
    unfold parseTarget
    rw [if_neg (by simp), if_neg (by rw [star_eq]; intro h; cases h)]
    have e := count_split (q := v) hn
    have hc := cut_at hn v
    simp only [List.cons_append, List.nil_append] at e hc
    by_cases hv : v = []
    · subst hv
      rw [if_pos (e.2 rfl)]
      simp [hs]
    · rw [if_neg (fun h => hv (e.1 h)), hc.1, hc.2, hs]
      simp [hv]
  rw [hp]
  have e3 : Url.string ⟨[47], [], decide (v = []), v⟩ = 47 :: 63 :: v := by
    unfold Url.string
    have e4 : Url.escapedPath ⟨[47], [], decide (v = []), v⟩ = [47] := by
      unfold Url.escapedPath
      have e5 : escapePath [47] = [47] := by decide +kernel
      have e6 : ([47] : Str) ≠ bs "*" := by decide +kernel
      simp [e5, e6]
    rw [e4]
    by_cases hv : v = [] <;> simp [hv]
  simp [e3]

/-! ## Cases -/

-- a path with a quotation mark, a letter that is not ASCII and an escape; written again with escapes
example : requestLog true true (fun _ => none) (bs "10.0.0.7:50312") (bs "GET /signalk/v1/\"%c3%a9?a+b HTTP/1.1") =
    some (.notice, bs "10.0.0.7:50312 GET /signalk/v1/%22%C3%A9?a+b") := by decide +kernel
-- one that is kept as it is
example : requestLog true true (fun _ => none) (bs "10.0.0.7:50312") (bs "GET /a%2fb(c)?? HTTP/1.1") =
    some (.notice, bs "10.0.0.7:50312 GET /a%2fb(c)??") := by decide +kernel
example : requestLog true true (fun _ => none) (bs "h:1") (bs "GET /%zz HTTP/1.1") = none ∧
    requestLog true true (fun _ => none) (bs "h:1") (bs "OPTIONS * HTTP/1.1") = none ∧
    requestLog true true (fun _ => none) (bs "h:1") (bs "TRACE * HTTP/1.1") = some (.notice, bs "h:1 TRACE *") := by decide +kernel
-- the screen is cleared
example : requestLog false true (fun _ => none) (bs "h:1") (bs "GET" ++ 32 :: ((47 :: 63 :: 27 :: bs "[2J") ++ 32 :: bs "HTTP/1.1")) =
    some (.notice, bs "h:1" ++ bs " " ++ bs "GET" ++ bs " " ++ 47 :: 63 :: 27 :: bs "[2J") :=
  C135_control_false _ _ _ (by decide +kernel)

end Argo.Log
