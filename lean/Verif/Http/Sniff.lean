import Verif.Html.Pages
import Verif.Xml.Pages
import Verif.Json.Pages

set_option autoImplicit false

/-!
# The Content-Type of a reply

net/http labels a reply whose handler sets no Content-Type by looking at its first 512 bytes (`DetectContentType`,
the algorithm of the WHATWG MIME Sniffing Standard).  This is a model of that library function (the source is not in
/repo) and of the headers argo's handlers set.
-/

namespace Argo.Http

open Argo
open Argo.Signalk (Str bs)

/-! ## net/http `DetectContentType` (sniff.go) -/

/-- sniff.go `isWS` -/
def isWS (b : Byte) : Bool := b == 9 || b == 10 || b == 12 || b == 13 || b == 32

/-- sniff.go `isTT` -/
def isTT (b : Byte) : Bool := b == 32 || b == 62

/-- One row of the table of signatures. -/
inductive Sig where
  /-- `htmlSig`: without regard to case, and a space or `>` must follow -/
  | html (p : Str)
  /-- `maskedSig` and (with the mask 0xFF throughout) `exactSig`: pairs of mask and byte -/
  | masked (skipWS : Bool) (p : List (Byte × Byte)) (ct : String)
  | mp4
  | text

def exact (s : Str) : List (Byte × Byte) := s.map (fun b => (255, b))

/-- Bytes that may be anything. -/
def any (n : Nat) : List (Byte × Byte) := List.replicate n (0, 0)

/-- sniff.go `htmlSig.match` after the white space. -/
def htmlMatch : Str → Str → Bool
  | [], d :: _ => isTT d
  | h :: hs, d :: ds => (if 65 ≤ h.toNat ∧ h.toNat ≤ 90 then d &&& 0xDF else d) == h && htmlMatch hs ds
  | _, [] => false

/-- sniff.go `maskedSig.match`, `exactSig.match`. -/
def maskMatch : List (Byte × Byte) → Str → Bool
  | [], _ => true
  | (m, p) :: r, d :: ds => (d &&& m) == p && maskMatch r ds
  | _ :: _, [] => false

/-- The size of the first box of an MP4 file: four bytes, the first is the highest. -/
def boxSize (d : Str) : Nat := (d.take 4).foldl (fun n b => 256 * n + b.toNat) 0

/-- sniff.go `mp4Sig.match` -/
def mp4Match (d : Str) : Bool :=
  decide (12 ≤ d.length) && decide (boxSize d ≤ d.length) && decide (boxSize d % 4 = 0) &&
    ((d.drop 4).take 4 == bs "ftyp") &&
    (List.range (boxSize d)).any fun k => decide (8 ≤ k) && decide (k % 4 = 0) && decide (k ≠ 12) && ((d.drop k).take 3 == bs "mp4")

/-- sniff.go `textSig.match`: bytes that do not occur in texts. -/
def binary (b : Byte) : Bool :=
  decide (b.toNat ≤ 8 ∨ b.toNat = 0x0B ∨ (0x0E ≤ b.toNat ∧ b.toNat ≤ 0x1A) ∨ (0x1C ≤ b.toNat ∧ b.toNat ≤ 0x1F))

def Sig.detect (d : Str) : Sig → Option String
  | .html p => if htmlMatch p (d.dropWhile isWS) then some "text/html; charset=utf-8" else none
  | .masked skip p ct => if maskMatch p (if skip then d.dropWhile isWS else d) then some ct else none
  | .mp4 => if mp4Match d then some "video/mp4" else none
  | .text => if (d.dropWhile isWS).all (fun b => !binary b) then some "text/plain; charset=utf-8" else none

/-- The rows of `sniffSignatures` before MP4. -/
def sigs1 : List Sig :=
  ["<!DOCTYPE HTML", "<HTML", "<HEAD", "<SCRIPT", "<IFRAME", "<H1", "<DIV", "<FONT", "<TABLE", "<A", "<STYLE", "<TITLE",
    "<B", "<BODY", "<BR", "<P", "<!--"].map (fun s => .html (bs s)) ++ [
  .masked true (exact (bs "<?xml")) "text/xml; charset=utf-8",
  .masked false (exact (bs "%PDF-")) "application/pdf",
  .masked false (exact (bs "%!PS-Adobe-")) "application/postscript",
  .masked false (exact [0xFE, 0xFF] ++ any 2) "text/plain; charset=utf-16be",
  .masked false (exact [0xFF, 0xFE] ++ any 2) "text/plain; charset=utf-16le",
  .masked false (exact [0xEF, 0xBB, 0xBF] ++ any 1) "text/plain; charset=utf-8",
  .masked false (exact [0, 0, 1, 0]) "image/x-icon",
  .masked false (exact [0, 0, 2, 0]) "image/x-icon",
  .masked false (exact (bs "BM")) "image/bmp",
  .masked false (exact (bs "GIF87a")) "image/gif",
  .masked false (exact (bs "GIF89a")) "image/gif",
  .masked false (exact (bs "RIFF") ++ any 4 ++ exact (bs "WEBPVP")) "image/webp",
  .masked false (exact [0x89, 0x50, 0x4E, 0x47, 0x0D, 0x0A, 0x1A, 0x0A]) "image/png",
  .masked false (exact [0xFF, 0xD8, 0xFF]) "image/jpeg",
  .masked false (exact (bs ".snd")) "audio/basic",
  .masked false (exact (bs "FORM") ++ any 4 ++ exact (bs "AIFF")) "audio/aiff",
  .masked false (exact (bs "ID3")) "audio/mpeg",
  .masked false (exact (bs "OggS" ++ [0])) "application/ogg",
  .masked false (exact (bs "MThd" ++ [0, 0, 0, 6])) "audio/midi",
  .masked false (exact (bs "RIFF") ++ any 4 ++ exact (bs "AVI ")) "video/avi",
  .masked false (exact (bs "RIFF") ++ any 4 ++ exact (bs "WAVE")) "audio/wave"]

/-- The row of Embedded OpenType fonts: `LP` at byte 34, whatever precedes it. -/
def eot : Sig := .masked false (any 34 ++ exact (bs "LP")) "application/vnd.ms-fontobject"

/-- The rows of `sniffSignatures` from WebM on, without `eot` and the last. -/
def sigs2 : List Sig := [
  .masked false (exact [0x1A, 0x45, 0xDF, 0xA3]) "video/webm",
  .masked false (exact [0, 1, 0, 0]) "font/ttf",
  .masked false (exact (bs "OTTO")) "font/otf",
  .masked false (exact (bs "ttcf")) "font/collection",
  .masked false (exact (bs "wOFF")) "font/woff",
  .masked false (exact (bs "wOF2")) "font/woff2",
  .masked false (exact [0x1F, 0x8B, 8]) "application/x-gzip",
  .masked false (exact [0x50, 0x4B, 3, 4]) "application/zip",
  .masked false (exact [0x52, 0x61, 0x72, 0x21, 0x1A, 7, 0]) "application/x-rar-compressed",
  .masked false (exact [0x52, 0x61, 0x72, 0x21, 0x1A, 7, 1, 0]) "application/x-rar-compressed",
  .masked false (exact [0, 0x61, 0x73, 0x6D]) "application/wasm"]

/-- sniff.go `sniffSignatures`; releases of Go from 2016 lack the font `eot` (`fonts`). -/
def sniffSignatures (fonts : Bool) : List Sig := sigs1 ++ .mp4 :: ((if fonts then [eot] else []) ++ sigs2 ++ [.text])

/-- net/http `DetectContentType` -/
def sniff (fonts : Bool) (body : Str) : String :=
  ((sniffSignatures fonts).findSome? (Sig.detect (body.take 512))).getD "application/octet-stream"

/-! ## Replies -/

/-- What a handler does: the Content-Type it sets, if any, and what it writes. -/
structure Reply where
  set : Option String
  body : Str

/-- net/http `chunkWriter.writeHeader`: the Content-Type of the reply. -/
def label (fonts : Bool) (r : Reply) : Option String :=
  match r.set with
  | some t => some t
  | none => if r.body = [] then none else some (sniff fonts r.body)

/-- net/http `Error` -/
def httpError (msg : String) : Reply := ⟨some "text/plain; charset=utf-8", bs msg ++ [10]⟩

/-- api_server.go:72-74 `HomeHandler` -/
def home : Reply := ⟨none, bs "<html><head><title>Pyxis API</title></head><body><h1>Pyxis API</h1><a href=\"messages\">Messages</a></body></html>"⟩

/-- api_server.go:76-112 `MessagesIndex`: `fmt.Fprint` only. -/
def index (newer : Bool) (tbl : List Nmea2k.Pgn) (fold : String → String → Bool) (category typ : String) : GoM Reply := do
  return ⟨none, ← Json.indexReply newer tbl fold category typ⟩

/-- api_server.go:114-148 `MessageDetailsHandler`: `fmt.Fprint` only, in JSON or XML; `scale` and
`xmlScale` give the texts of factors. -/
def details (newer : Bool) (scale : String → Str) (xmlScale : String → List Char) (ord : Json.MapOrder) (tbl : List Nmea2k.Pgn) (key : Str) : GoM Reply := do
  match ← Json.detailsReply newer scale ord tbl key with
  | some b => return ⟨none, b⟩
  | none =>
    match ← Xml.detailsReply xmlScale tbl key with
    | some b => return ⟨none, b⟩
    | none => return ⟨none, []⟩

/-- api_server.go:150-163 `SendMessageHandler`: what it writes; `ok` if the body of a POST is JSON. -/
def send (post ok : Bool) : Reply := ⟨none, if post && !ok then bs "Invalid JSON" else []⟩

/-- ui_server.go:77-93 `uuidHandler` -/
def uuid (newer : Bool) (u : Str) : Reply := ⟨some "application/json; charset=utf-8", Json.uuidReply newer u⟩

/-- ui_server.go:95-116 `adminHandler`: nothing is written unless the body of a POST is not JSON. -/
def admin (post ok : Bool) : Reply := if post && !ok then httpError "Could not parse data" else ⟨none, []⟩

/-- ui_server.go:118-152 `appsHandler`: the packages found, `none` after an error. -/
def apps (get : Bool) (l : Option (List Packages.NpmObject)) : Reply :=
  if get then
    match l with
    | some l => ⟨none, Html.appsPage l⟩
    | none => ⟨none, []⟩
  else httpError "Method not allowed"

/-- ui_server.go:154-187 `appInstallHandlerFactory`: the outcome of the installation, `none` if the body is not JSON. -/
def install (post : Bool) (outcome : Option (Except Str Str)) : Reply :=
  if post then ⟨some "text/json", (outcome.map Json.installReply).getD []⟩ else httpError "Method not allowed"

/-- ui_server.go:189-198 `indexHandler` -/
def front (get : Bool) (c : Config.Conf) : Reply := ⟨none, if get then Html.indexPage c else []⟩

/-! ## Lemmas -/

/-- The signature fails within the first bytes `p`, whatever follows. -/
def htmlFails : Str → Str → Bool
  | [], d :: _ => !isTT d
  | h :: hs, d :: ds => if (if 65 ≤ h.toNat ∧ h.toNat ≤ 90 then d &&& 0xDF else d) == h then htmlFails hs ds else true
  | _, [] => false

def maskFails : List (Byte × Byte) → Str → Bool
  | (m, p) :: r, d :: ds => if (d &&& m) == p then maskFails r ds else true
  | _, _ => false

theorem htmlFails_sound : ∀ (h p r : Str), htmlFails h p = true → htmlMatch h (p ++ r) = false
  | [], [], _, e => by cases e
  | [], d :: ds, r, e => by simpa [htmlFails, htmlMatch] using e
  | h :: hs, [], _, e => by cases e
  | h :: hs, d :: ds, r, e => by
    simp only [htmlFails, List.cons_append, htmlMatch] at e ⊢
    generalize ((if 65 ≤ h.toNat ∧ h.toNat ≤ 90 then d &&& 0xDF else d) == h) = q at e ⊢
    split at e
    · rename_i k
      rw [k, htmlFails_sound hs ds r e]; rfl
    · rename_i k
      rw [Bool.not_eq_true] at k
      rw [k]; rfl

theorem maskFails_sound : ∀ (m : List (Byte × Byte)) (p r : Str), maskFails m p = true → maskMatch m (p ++ r) = false
  | [], _, _, e => by cases e
  | _ :: _, [], _, e => by cases e
  | (m, q) :: ms, d :: ds, r, e => by
    simp only [maskFails, List.cons_append, maskMatch] at e ⊢
    split at e
    · rename_i k
      rw [k, maskFails_sound ms ds r e]; rfl
    · rename_i k
      rw [Bool.not_eq_true] at k
      rw [k]; rfl

def Sig.fails (p : Str) : Sig → Bool
  | .html h => htmlFails h p
  | .masked _ m _ => maskFails m p
  | _ => false

theorem dropWhile_start {p : Str} (hp : ∃ b t, p = b :: t ∧ isWS b = false) (r : Str) : (p ++ r).dropWhile isWS = p ++ r := by
  obtain ⟨b, t, rfl, hb⟩ := hp
  simp [List.dropWhile, hb]

theorem fails_sound {p : Str} (hp : ∃ b t, p = b :: t ∧ isWS b = false) (r : Str) {s : Sig} (h : s.fails p = true) :
    s.detect (p ++ r) = none := by
  cases s with
  | html q => simp only [Sig.detect, dropWhile_start hp, htmlFails_sound _ _ r h]; rfl
  | masked k m ct =>
    simp only [Sig.detect, dropWhile_start hp, ite_self, maskFails_sound _ _ r h]; rfl
  | mp4 => cases h
  | text => cases h

theorem mp4_text {b : Byte} {t : Str} (hb : b ≠ 0) (hl : (b :: t).length ≤ 512) : Sig.detect (b :: t) .mp4 = none := by
  have h0 : 1 ≤ b.toNat := by
    rcases Nat.eq_zero_or_pos b.toNat with h | h
    · exact absurd (UInt8.toNat_inj.mp (by simpa using h)) hb
    · exact h
  have hm : mp4Match (b :: t) = false := by
    by_cases h12 : 12 ≤ (b :: t).length
    · have : 512 < boxSize (b :: t) := by
        rcases t with _ | ⟨t1, _ | ⟨t2, _ | ⟨t3, t⟩⟩⟩
        · simp at h12
        · simp at h12
        · simp at h12
        · simp only [boxSize, List.take_succ_cons, List.take_zero, List.foldl_cons, List.foldl_nil]
          omega
      have h' : ¬ boxSize (b :: t) ≤ (b :: t).length := by omega
      simp only [mp4Match, decide_eq_false h', Bool.and_false, Bool.false_and]
    · simp only [mp4Match, decide_eq_false h12, Bool.false_and]
  simp only [Sig.detect, hm]; rfl

theorem any_match (n : Nat) (m : List (Byte × Byte)) (d : Str) (hd : n ≤ d.length) :
    maskMatch (any n ++ m) d = maskMatch m (d.drop n) := by
  induction n generalizing d with
  | zero => rfl
  | succ n ih =>
    cases d with
    | nil => simp at hd
    | cons b d =>
      simp only [any, List.replicate_succ, List.cons_append, maskMatch, List.drop_succ_cons]
      have : (b &&& 0) = (0 : Byte) := by simp
      rw [this]
      simpa [any] using ih d (by simpa using hd)

theorem any_short (n : Nat) (m : List (Byte × Byte)) (d : Str) (hd : d.length < n) : maskMatch (any n ++ m) d = false := by
  induction n generalizing d with
  | zero => omega
  | succ n ih =>
    cases d with
    | nil => rfl
    | cons b d =>
      simp only [any, List.replicate_succ, List.cons_append, maskMatch]
      have := ih d (by simpa using hd)
      simp only [any] at this
      rw [this, Bool.and_false]

theorem eot_none {d : Str} (h : (d.drop 34).take 2 ≠ bs "LP") : Sig.detect d eot = none := by
  have hm : maskMatch (any 34 ++ exact (bs "LP")) d = false := by
    by_cases hl : 34 ≤ d.length
    · rw [any_match _ _ _ hl]
      have e : bs "LP" = [76, 80] := by decide +kernel
      rw [e] at h ⊢
      generalize d.drop 34 = x at h
      rcases x with _ | ⟨a, _ | ⟨b, x⟩⟩
      · rfl
      · simp [exact, maskMatch]
      · simp only [List.take_succ_cons, List.take_zero] at h
        simp only [exact, List.map_cons, List.map_nil, maskMatch, Bool.and_true]
        have ha : (a &&& 255) = a := by apply UInt8.toNat_inj.mp; have := a.toNat_lt; simp only [UInt8.toNat_and]; exact Nat.and_two_pow_sub_one_of_lt_two_pow (n := 8) this
        have hb : (b &&& 255) = b := by apply UInt8.toNat_inj.mp; have := b.toNat_lt; simp only [UInt8.toNat_and]; exact Nat.and_two_pow_sub_one_of_lt_two_pow (n := 8) this
        rw [ha, hb]
        by_cases h1 : a = 76
        · by_cases h2 : b = 80
          · subst h1; subst h2; exact absurd rfl h
          · simp [h2]
        · simp [h1]
    · exact any_short _ _ _ (by omega)
  simp only [eot, Sig.detect, Bool.false_eq_true, if_false, hm]

/-- Texts that begin with `p`, where `p` excludes the signatures, are plain text. -/
theorem sniff_plain (fonts : Bool) {b : Byte} {t r : Str} (hb : isWS b = false) (h0 : b ≠ 0)
    (h1 : sigs1.all (Sig.fails (b :: t)) = true) (h2 : sigs2.all (Sig.fails (b :: t)) = true)
    (hlp : ((b :: t ++ r).drop 34).take 2 ≠ bs "LP") (hlen : (b :: t).length ≤ 512)
    (hx : ∀ x ∈ b :: t ++ r, binary x = false) : sniff fonts (b :: t ++ r) = "text/plain; charset=utf-8" := by
  have htake : (b :: t ++ r).take 512 = b :: t ++ r.take (512 - (b :: t).length) := by
    rw [List.take_append, List.take_of_length_le hlen]
  have hstart : ∃ c u, b :: t = c :: u ∧ isWS c = false := ⟨b, t, rfl, hb⟩
  have e1 : sigs1.findSome? (Sig.detect ((b :: t ++ r).take 512)) = none := by
    rw [List.findSome?_eq_none_iff, htake]
    exact fun s hs => fails_sound hstart _ (List.all_eq_true.mp h1 s hs)
  have e2 : sigs2.findSome? (Sig.detect ((b :: t ++ r).take 512)) = none := by
    rw [List.findSome?_eq_none_iff, htake]
    exact fun s hs => fails_sound hstart _ (List.all_eq_true.mp h2 s hs)
  have e3 : Sig.detect ((b :: t ++ r).take 512) .mp4 = none := by
    have := mp4_text (b := b) (t := ((t ++ r).take 511)) h0 (by simp)
    simpa using this
  have e4 : Sig.detect ((b :: t ++ r).take 512) eot = none := by
    apply eot_none
    rw [List.drop_take, List.take_take]
    simpa using hlp
  have e5 : Sig.detect ((b :: t ++ r).take 512) .text = some "text/plain; charset=utf-8" := by
    have : ((((b :: t ++ r).take 512).dropWhile isWS).all fun b => !binary b) = true := by
      rw [List.all_eq_true]
      intro x hx'
      have := hx x (List.mem_of_mem_take (List.dropWhile_subset _ hx'))
      rw [this]; rfl
    simp only [Sig.detect, this, if_true]
  unfold sniff sniffSignatures
  rw [List.findSome?_append, e1, Option.none_or, List.findSome?_cons, e3, List.append_assoc, List.findSome?_append]
  have e6 : (if fonts then [eot] else []).findSome? (Sig.detect ((b :: t ++ r).take 512)) = none := by
    cases fonts
    · rfl
    · simp only [if_true, List.findSome?_cons, e4, List.findSome?_nil]
  rw [e6, Option.none_or, List.findSome?_append, e2, Option.none_or, List.findSome?_cons, e5]
  rfl

end Argo.Http
