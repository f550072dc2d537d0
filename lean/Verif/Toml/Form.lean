import Verif.Toml.Props
import Verif.Config.PostPage

set_option autoImplicit false

/-!
# C134: from the form to the next start

C133 is about the bytes that the settings page posts, C130 about the bytes of the file that a POST saves.  Here they are one run:
argo starts on its file, receives any bodies, receives what the page posts, and is started again.
-/

namespace Argo.Toml

open Argo Config Signalk

/-! ## Specification -/

/-- argo starts on the file `argo.conf` of these files and receives these bodies at POST /admin, one after the other. -/
def served (limit : Option Nat) (nil : Conf → Bool) (fs : FS) (bodies : List (List UInt8)) : Machine :=
  (bodies.map (posted limit)).foldl (post nil) (boot fs)

/-- The program can be started on these files (argo.go:86-88 ends it otherwise). -/
def Starts (fs : FS) : Prop := (readFile fs (bs "argo.conf")).2 = true

/-- The configuration with which it starts. -/
def startup (fs : FS) : Conf := (boot fs).1

/-- What the page can hold: text without NUL, and numbers (those that are numbers) below 2^63. -/
def Enterable (b : Browser) (f : Form) : Prop :=
  Texts f ∧ (∀ s, (0 : UInt8) ∉ f.text s) ∧ ∀ s ∈ [Setting.year, .mmsi, .serverPort, .mqttPort], Fits (b.parseInt (f.text s))

/-- Argo is started, the page is submitted with each of these forms, and argo is stopped; and so on for every session: the files in the
end. -/
def sessions (limit : Option Nat) (nil : Conf → Bool) (print : Int → Str) (b : Browser) (fs : FS) (days : List (List Form)) : FS :=
  days.foldl (fun fs forms => (served limit nil fs (forms.map (jsBody print b))).2) fs

/-! ## Proofs -/

theorem served_append (limit : Option Nat) (nil : Conf → Bool) (fs : FS) (bodies : List (List UInt8)) (body : List UInt8) :
    served limit nil fs (bodies ++ [body]) = post nil (served limit nil fs bodies) (posted limit body) := by
  simp [served]

theorem post_fst (nil : Conf → Bool) (m : Machine) (p : Option Doc) : (post nil m p).1 = (admin m.1 p).1 := by
  unfold post; split <;> rfl

theorem served_typed (limit : Option Nat) (nil : Conf → Bool) (fs : FS) (bodies : List (List UInt8)) :
    WellTyped (served limit nil fs bodies).1 := by
  have := (posts_machine nil (boot fs) (bodies.map (posted limit))).1
  unfold served
  rw [this]
  exact reachable_typed _ _

theorem submit_interfaces (b : Browser) (f : Form) (c : Conf) : (admin c (some (submit b f))).1.interfaces = c.interfaces := by
  have h : (admin c (some (submit b f))).1 =
      Config.merge c ⟨fun s => if true = true then ((submit b f).val s).getD (zeroOf s) else zeroOf s, (submit b f).interfaces⟩ := by
    simp only [admin, decode_some (fun _ => true) _ (submit_typed b f)]
  rw [h]
  simp [Config.merge, submit]

abbrev textInputs : List Setting := [Setting.vesselName, .manufacturer, .model, .callsign, .registration, .listenOn, .mqttHost, .clientId,
  .username, .password, .certificate]

theorem inputs : ∀ s ∈ settings, s ∈ textInputs ∨ s ∈ [Setting.year, .mmsi, .serverPort, .mqttPort] ∨
    s ∈ [Setting.enableWebsockets, .serverUseTls, .mqttEnable, .mqttUseTls] ∨ s = .uuid ∨
    s ∈ Config.hidden ++ [Setting.uuid0, .uuid1, .uuid2, .uuid3, .uuid4] := by decide +kernel

theorem saved_of {l : List Setting} (h : ∀ s ∈ l, inToml s = true) {s : Setting} (hs : s ∈ l) : inToml s = true := h s hs

theorem nul_uuid {f : Form} (hz : ∀ s, (0 : UInt8) ∉ f.text s) : (0 : UInt8) ∉ getUuid f := by
  have h45 : (0 : UInt8) ≠ 45 := by decide
  simp only [getUuid, List.mem_append, List.mem_cons, not_or]
  exact ⟨hz _, h45, hz _, h45, hz _, h45, hz _, h45, hz _⟩

/-- The five parts shown after a start, when the UUID is made of five texts without dashes. -/
theorem startup_parts {fs : FS} (h : Starts fs) {p0 p1 p2 p3 p4 : Str}
    (hu : (startup fs).val .uuid = .str (p0 ++ 45 :: (p1 ++ 45 :: (p2 ++ 45 :: (p3 ++ 45 :: p4)))))
    (hp : ∀ p ∈ [p0, p1, p2, p3, p4], (45 : UInt8) ∉ p) :
    [(startup fs).val .uuid0, (startup fs).val .uuid1, (startup fs).val .uuid2, (startup fs).val .uuid3, (startup fs).val .uuid4] =
      [.str p0, .str p1, .str p2, .str p3, .str p4] := by
  unfold Starts at h
  unfold startup boot at hu ⊢
  unfold readFile at h hu ⊢
  cases hd : fileDoc (fs (bs "argo.conf")) with
  | none => rw [hd] at h; cases h
  | some d =>
    rw [hd] at h hu
    obtain ⟨h1, h2⟩ := readConfig_parts d h
    simp only at hu
    rw [h1] at hu
    injection hu with hu
    simp only [List.forall_mem_cons, List.not_mem_nil, false_implies, implies_true, and_true] at hp
    obtain ⟨a, b, c, e, f⟩ := hp
    have hs : splitDash (fileUuid d) = [p0, p1, p2, p3, p4] := by
      rw [hu, splitDash_append _ a, splitDash_append _ b, splitDash_append _ c, splitDash_append _ e, splitDash_plain _ f]
    have hc : (fileUuid d).count 45 = 4 := by
      have := splitDash_length (fileUuid d)
      rw [hs] at this; simp at this; omega
    show parts (readConfig (some d)).1 = _
    rw [h2, if_pos hc, hs]; rfl

/-- What can be saved can still be saved after the form was submitted. -/
theorem submit_savable {b : Browser} {f : Form} (hz : ∀ s, (0 : UInt8) ∉ f.text s)
    (hn : ∀ s ∈ [Setting.year, .mmsi, .serverPort, .mqttPort], ∀ n, b.parseInt (f.text s) = some n → n.natAbs < 2 ^ 63) {c : Conf}
    (hc : WellTyped c) (h : Savable false c) : Savable false (admin c (some (submit b f))).1 := by
  obtain ⟨_, r1, r2, r3, r4, r5, r6, _⟩ := C114_rule (b := b) hc f
  have hi := submit_interfaces b f c
  have key : ∀ t : Str, (0 : UInt8) ∉ t → ∀ b ∈ t, if false = true then 32 ≤ b.toNat ∨ b = 9 ∨ b = 10 ∨ b = 13 else b ≠ 0 := by
    intro t ht x hx
    rw [if_neg (by decide)]
    rintro rfl
    exact ht hx
  refine ⟨?_, ?_, by rw [hi]; exact h.named, by rw [hi]; exact h.names, by rw [hi]; exact h.members, by rw [hi]; exact h.unique⟩
  · intro s t hs ht
    by_cases hu : Unset c s
    · rcases inputs s (settings_all s) with h2 | h3 | h4 | h5 | h6
      · rw [r2 s h2 hu] at ht
        injection ht with ht
        subst ht
        exact key _ (hz s)
      · rw [r3 s h3 hu] at ht; cases ht
      · rw [r4 s h4 hu] at ht; cases ht
      · subst h5
        rw [r5 hu] at ht
        injection ht with ht
        subst ht
        exact key _ (nul_uuid hz)
      · rw [r6 s h6] at ht
        exact h.texts s t hs ht
    · rw [r1 s hu] at ht
      exact h.texts s t hs ht
  · intro s n hs ht
    by_cases hu : Unset c s
    · rcases inputs s (settings_all s) with h2 | h3 | h4 | h5 | h6
      · rw [r2 s h2 hu] at ht; cases ht
      · rw [r3 s h3 hu] at ht
        have hsm := hn s h3
        injection ht with ht
        cases hp : b.parseInt (f.text s) with
        | none => rw [hp] at ht; simp at ht; omega
        | some k =>
          have := hsm k hp
          rw [hp] at ht
          simp at ht
          omega
      · rw [r4 s h4 hu] at ht; cases ht
      · subst h5; rw [r5 hu] at ht; cases ht
      · rw [r6 s h6] at ht
        exact h.numbers s n hs ht
    · rw [r1 s hu] at ht
      exact h.numbers s n hs ht

/-- What the page posts, when the numbers are below 2^63. -/
theorem entered_posted {limit : Option Nat} (hl : ∀ n, limit = some n → 2 ≤ n) {print : Int → Str} (hp : Prints print) (b : Browser)
    {f : Form} (hf : Texts f) (hn : ∀ s ∈ [Setting.year, .mmsi, .serverPort, .mqttPort], Fits (b.parseInt (f.text s))) :
    ∃ r : Int → Int, posted limit (jsBody print b f) = some (submit (rounded r b) f) ∧
      (∀ s ∈ [Setting.year, .mmsi, .serverPort, .mqttPort], ∀ n, (rounded r b).parseInt (f.text s) = some n → n.natAbs < 2 ^ 63) ∧
      ∀ s ∈ [Setting.year, .mmsi, .serverPort, .mqttPort], ∀ n, b.parseInt (f.text s) = some n →
        (r n - n).natAbs * 2 ^ 53 ≤ n.natAbs ∧ (n.natAbs ≤ 2 ^ 53 → r n = n) := by
  obtain ⟨r, hr⟩ := printed_as hp
  have key : ∀ s ∈ [Setting.year, .mmsi, .serverPort, .mqttPort], Shown print r (b.parseInt (f.text s)) := by
    intro s hs n hsn
    have h1 := (double_edge (hn s hs n hsn).1).1 (hn s hs n hsn).2
    obtain ⟨h2, h3, _⟩ := hr n (by omega)
    exact ⟨h2, by omega⟩
  refine ⟨r, ?_, ?_, ?_⟩
  · have := page_posted hl hp b hf key []
    rwa [List.append_nil] at this
  · intro s hs n hsn
    simp only [rounded, Option.map_eq_some_iff] at hsn
    obtain ⟨m, hm, rfl⟩ := hsn
    exact (key s hs m hm).2
  · intro s hs n hsn
    have h1 := (double_edge (hn s hs n hsn).1).1 (hn s hs n hsn).2
    exact (hr n (by omega)).2

/-! ## Theorems -/

/-- **C134** (partial): argo was started on a file that it can read and has received any bodies; if what it has now can be saved, then,
whatever texts without NUL and whatever numbers below 2^63 are in the form: after the page
was submitted the next start succeeds; every setting that had a value then has the same value; every setting that had none has what was
entered, an input that is no number counting as 0 and a number above 2^53 being rounded by 2^-53 of it at most; the UUID is that of the five inputs; and the interfaces are the same.  Missing: the certificate (`C134_certificate_false`),
NUL (`C134_nul_false`) and larger numbers (`C134_huge_false`). -/
theorem C134_entered_partial {limit : Option Nat} (hl : ∀ n, limit = some n → 2 ≤ n) (nil : Conf → Bool) (fs : FS) (h : Starts fs)
    (bodies : List (List UInt8)) {print : Int → Str} (hp : Prints print) (b : Browser) {f : Form} (hf : Enterable b f)
    (hs : Savable false (served limit nil fs bodies).1) :
    let c := (served limit nil fs bodies).1
    let files := (served limit nil fs (bodies ++ [jsBody print b f])).2
    Starts files ∧
    (∀ s, s ∉ [Setting.certificate, .uuid0, .uuid1, .uuid2, .uuid3, .uuid4] → ¬ Unset c s → (startup files).val s = c.val s) ∧
    (∀ s ∈ [Setting.vesselName, .manufacturer, .model, .callsign, .registration, .listenOn, .mqttHost, .clientId, .username,
        .password], Unset c s → (startup files).val s = .str (f.text s)) ∧
    (∀ s ∈ [Setting.year, .mmsi, .serverPort, .mqttPort], Unset c s →
      (b.parseInt (f.text s) = none → (startup files).val s = .int 0) ∧
      ∀ n, b.parseInt (f.text s) = some n →
        ∃ k, (startup files).val s = .int k ∧ (k - n).natAbs * 2 ^ 53 ≤ n.natAbs ∧ (n.natAbs ≤ 2 ^ 53 → k = n)) ∧
    (∀ s ∈ [Setting.enableWebsockets, .serverUseTls, .mqttEnable, .mqttUseTls], Unset c s →
      (startup files).val s = .bool (f.checked s)) ∧
    (Unset c .uuid → (startup files).val .uuid = .str (f.text .uuid0 ++ 45 :: (f.text .uuid1 ++ 45 :: (f.text .uuid2 ++ 45 ::
      (f.text .uuid3 ++ 45 :: f.text .uuid4))))) ∧
    (Unset c .uuid → (∀ s ∈ [Setting.uuid0, .uuid1, .uuid2, .uuid3, .uuid4], (45 : UInt8) ∉ f.text s) →
      ∀ s ∈ [Setting.uuid0, .uuid1, .uuid2, .uuid3, .uuid4], (startup files).val s = .str (f.text s)) ∧
    (∀ s ∈ [Setting.logLevel, .mapFile, .assetPath, .publicKeyFile, .privateKeyFile, .channel],
      (startup files).val s = c.val s) ∧
    (startup files).interfaces.Perm c.interfaces := by
  intro c files
  obtain ⟨hf, hz, hn⟩ := hf
  have hc : WellTyped c := served_typed limit nil fs bodies
  obtain ⟨r, he, hb, hr⟩ := entered_posted hl hp b hf hn
  obtain ⟨_, r1, r2, r3, r4, r5, r6, _⟩ := C114_rule (b := rounded r b) hc f
  have hrun : (served limit nil fs (bodies ++ [jsBody print b f])).1 = (admin c (some (submit (rounded r b) f))).1 := by
    rw [served_append, he, post_fst]
  have hsav := submit_savable hz hb hc hs
  have hrestart := C130_restart_partial nil fs h ((bodies ++ [jsBody print b f]).map (posted limit))
  have hm : ((bodies ++ [jsBody print b f]).map (posted limit)).foldl (post nil) (boot fs) =
    served limit nil fs (bodies ++ [jsBody print b f]) := rfl
  rw [hm] at hrestart
  obtain ⟨h1, h2, h3⟩ := hrestart (by rw [hrun]; exact hsav)
  rw [hrun] at h2 h3
  rw [submit_interfaces] at h3
  have k : ∀ s, inToml s = true → (startup files).val s = (admin c (some (submit (rounded r b) f))).1.val s := h2
  have hid : Unset c .uuid → (startup files).val .uuid = .str (f.text .uuid0 ++ 45 :: (f.text .uuid1 ++ 45 :: (f.text .uuid2 ++ 45 ::
      (f.text .uuid3 ++ 45 :: f.text .uuid4)))) := fun hu => by rw [k .uuid rfl, r5 hu]; rfl
  refine ⟨h1, ?_, ?_, ?_, ?_, hid, ?_, ?_, h3⟩
  · intro s hs hu
    have : ∀ s ∈ settings, s ∉ [Setting.certificate, .uuid0, .uuid1, .uuid2, .uuid3, .uuid4] → inToml s = true := by decide +kernel
    rw [k s (this s (settings_all s) hs), r1 s hu]
  · intro s hs hu
    have : ∀ s ∈ [Setting.vesselName, .manufacturer, .model, .callsign, .registration, .listenOn, .mqttHost, .clientId, .username,
        .password], inToml s = true ∧ s ∈ textInputs := by decide +kernel
    rw [k s (this s hs).1, r2 s (this s hs).2 hu]
  · intro s hs hu
    have hv := k s (saved_of (by decide +kernel) hs)
    rw [r3 s hs hu] at hv
    refine ⟨fun h => ?_, fun n h => ⟨r n, ?_, hr s hs n h⟩⟩
    · rw [hv]; simp [rounded, h]
    · rw [hv]; simp [rounded, h]
  · intro s hs hu
    rw [k s (saved_of (by decide +kernel) hs), r4 s hs hu]
  · intro hu hd
    have := startup_parts h1 (hid hu) (by simpa using hd)
    simpa using this
  · intro s hs
    rw [k s (saved_of (by decide +kernel) hs), r6 s (List.mem_append_left _ hs)]

theorem savable_served {limit : Option Nat} (hl : ∀ n, limit = some n → 2 ≤ n) (nil : Conf → Bool) (fs : FS) {print : Int → Str}
    (hp : Prints print) (b : Browser) (forms : List Form) (hf : ∀ f ∈ forms, Enterable b f) (hs : Savable false (startup fs)) :
    Savable false (served limit nil fs (forms.map (jsBody print b))).1 ∧
      (served limit nil fs (forms.map (jsBody print b))).1.interfaces = (startup fs).interfaces := by
  induction forms using List.reverseRecOn with
  | nil => exact ⟨hs, rfl⟩
  | append_singleton fms f ih =>
    obtain ⟨i1, i2⟩ := ih (fun g hg => hf g (by simp [hg]))
    obtain ⟨t1, t2, t3⟩ := hf f (by simp)
    have hc := served_typed limit nil fs (fms.map (jsBody print b))
    obtain ⟨r, he, hb, _⟩ := entered_posted hl hp b t1 t3
    simp only [List.map_append, List.map_cons, List.map_nil]
    rw [served_append, he, post_fst]
    exact ⟨submit_savable t2 hb hc i1, by rw [submit_interfaces, i2]⟩

theorem savable_perm {c d : Conf} (h : Savable false c) (hv : ∀ s, inToml s = true → d.val s = c.val s)
    (hi : d.interfaces.Perm c.interfaces) : Savable false d where
  texts s t hs ht := h.texts s t hs (by rw [← hv s hs]; exact ht)
  numbers s n hs hn := h.numbers s n hs (by rw [← hv s hs]; exact hn)
  named e he := h.named e (hi.mem_iff.1 he)
  names e he := h.names e (hi.mem_iff.1 he)
  members e he := h.members e (hi.mem_iff.1 he)
  unique := (hi.map Prod.fst).nodup_iff.2 h.unique

/-- **C134** (always, partial): if argo can be started on its file and what it then has can be saved, then, however often the page is
submitted and argo started again, argo can be started, has the same interfaces, and what it has can be saved.  Missing:
`C134_certificate_false`, `C134_huge_false`. -/
theorem C134_always_partial {limit : Option Nat} (hl : ∀ n, limit = some n → 2 ≤ n) (nil : Conf → Bool) (fs : FS) {print : Int → Str}
    (hp : Prints print) (b : Browser) (days : List (List Form)) (hf : ∀ forms ∈ days, ∀ f ∈ forms, Enterable b f)
    (h : Starts fs) (hs : Savable false (startup fs)) :
    let files := sessions limit nil print b fs days
    Starts files ∧ (startup files).interfaces.Perm (startup fs).interfaces ∧ Savable false (startup files) := by
  induction days generalizing fs with
  | nil => exact ⟨h, List.Perm.refl _, hs⟩
  | cons forms days ih =>
    obtain ⟨s1, s2⟩ := savable_served hl nil fs hp b forms (hf forms (by simp)) hs
    obtain ⟨h1, h2, h3⟩ := C130_restart_partial nil fs h ((forms.map (jsBody print b)).map (posted limit)) s1
    have h3 : (startup (served limit nil fs (forms.map (jsBody print b))).2).interfaces.Perm
        (served limit nil fs (forms.map (jsBody print b))).1.interfaces := h3
    have hsav : Savable false (startup (served limit nil fs (forms.map (jsBody print b))).2) := savable_perm s1 h2 h3
    obtain ⟨i1, i2, i3⟩ := ih (served limit nil fs (forms.map (jsBody print b))).2 (fun g hg => hf g (by simp [hg])) h1 hsav
    exact ⟨i1, i2.trans (h3.trans (by rw [s2])), i3⟩

/-- **C134** is false (certificate): argo never starts with a certificate, whatever was entered: the file does not hold it. -/
theorem C134_certificate_false (limit : Option Nat) (nil : Conf → Bool) (fs : FS) (bodies : List (List UInt8)) :
    (startup (served limit nil fs bodies).2).val .certificate = .str [] := by
  unfold startup boot readFile
  cases hd : fileDoc ((served limit nil fs bodies).2 (bs "argo.conf")) with
  | none => rfl
  | some d =>
    by_cases h : (readConfig (some d)).2 = true
    · exact (C73_value d h).2.1
    · rw [Bool.not_eq_true] at h
      rw [(C73_error (some d)).2 h]
      rfl

/-- **C134** is false (large numbers): if the number entered for the year, the MMSI or a port is 2^63 or more, then the next start is
as if the form had not been submitted. -/
theorem C134_huge_false (limit : Option Nat) (nil : Conf → Bool) (fs : FS) (bodies : List (List UInt8)) {print : Int → Str}
    (hp : Prints print) (b : Browser) {f : Form} (hf : Texts f) {s : Setting} (hs : s ∈ [Setting.year, .mmsi, .serverPort, .mqttPort])
    {n : Int} (hn : b.parseInt (f.text s) = some n) (hd : IsDouble n) (h : 2 ^ 63 ≤ n.natAbs) :
    served limit nil fs (bodies ++ [jsBody print b f]) = served limit nil fs bodies := by
  rw [served_append]
  unfold post
  rw [C133_huge_false limit hp b hf hs hn hd h]

/-- **C134** is false (NUL): if a text with a NUL is entered for a setting that has no value, argo cannot be started any more. -/
theorem C134_nul_false {limit : Option Nat} (hl : ∀ n, limit = some n → 2 ≤ n) (nil : Conf → Bool) (fs : FS)
    (bodies : List (List UInt8)) {print : Int → Str} (hp : Prints print) (b : Browser) {f : Form} (hf : Texts f)
    (hn : ∀ s ∈ [Setting.year, .mmsi, .serverPort, .mqttPort], Fits (b.parseInt (f.text s)))
    (hi : ∀ e ∈ (served limit nil fs bodies).1.interfaces, e.1 ≠ [] ∧ (10 : UInt8) ∉ e.1) {s : Setting}
    (hs : s ∈ [Setting.vesselName, .manufacturer, .model, .callsign, .registration, .listenOn, .mqttHost, .clientId, .username, .password])
    (hu : Unset (served limit nil fs bodies).1 s) (h0 : (0 : UInt8) ∈ f.text s) :
    ¬ Starts (served limit nil fs (bodies ++ [jsBody print b f])).2 := by
  have hc : WellTyped (served limit nil fs bodies).1 := served_typed limit nil fs bodies
  obtain ⟨r, he, hb, _⟩ := entered_posted hl hp b hf hn
  obtain ⟨⟨saved, hsaved⟩, _, r2, _⟩ := C114_rule (b := rounded r b) hc f
  have hlists : ∀ s ∈ [Setting.vesselName, .manufacturer, .model, .callsign, .registration, .listenOn, .mqttHost, .clientId, .username,
      .password], inToml s = true ∧ s ∈ textInputs := by decide +kernel
  have hv := r2 s (hlists s hs).2 hu
  have hifs := submit_interfaces (rounded r b) f (served limit nil fs bodies).1
  rw [served_append, he]
  obtain ⟨t, ht⟩ : ∃ t, configText (nil (admin (served limit nil fs bodies).1 (some (submit (rounded r b) f))).1)
      (admin (served limit nil fs bodies).1 (some (submit (rounded r b) f))).1 = some t := by
    rw [configText_eq, if_neg]
    · exact ⟨_, rfl⟩
    · simp only [List.any_eq_true, decide_eq_true_eq, not_exists, not_and, hifs]
      exact fun e h => (hi e h).1
  have hr := C130_nul_false false _ _ t ht (by rw [hifs]; exact fun e h => (hi e h).2) s (hlists s hs).1 _ hv h0
  have hfile : (post nil (served limit nil fs bodies) (some (submit (rounded r b) f))).2 (bs "argo.conf") = some t := by
    unfold post
    rw [hsaved]
    simp only [save, writeConfig, ht]
    exact if_pos rfl
  unfold Starts readFile
  rw [hfile]
  simp [fileDoc, hr, readConfig]

/-! ## A case -/

/-- A file of the owner, with one setting. -/
def exampleFiles : FS := fun n => if n = bs "argo.conf" then some (bs "[Mqtt]\nHost = \"h\"") else none

theorem example_start : Starts exampleFiles := by unfold Starts; decide +kernel

theorem exampleFiles_savable (limit : Option Nat) : Savable false (served limit (fun _ => false) exampleFiles []).1 := by
  have hi : (boot exampleFiles).1.interfaces = [] := by decide +kernel
  have hv : ∀ s ∈ settings, match (boot exampleFiles).1.val s with
      | .str t => ∀ b ∈ t, b ≠ 0
      | .int n => -2 ^ 63 ≤ n ∧ n < 2 ^ 63
      | .bool _ => True := by
    intro s hs
    have : settings.all (fun s => match (boot exampleFiles).1.val s with
      | .str t => t.all (· ≠ 0)
      | .int n => decide (-2 ^ 63 ≤ n) && decide (n < 2 ^ 63)
      | .bool _ => true) = true := by decide +kernel
    have := List.all_eq_true.mp this s hs
    split <;> simp_all
  show Savable false (boot exampleFiles).1
  refine ⟨?_, ?_, ?_, ?_, ?_, ?_⟩
  · intro s t _ ht b hb
    have := hv s (settings_all s)
    rw [ht] at this
    rw [if_neg (by decide)]
    exact this b hb
  · intro s n _ hn
    have := hv s (settings_all s)
    rw [hn] at this
    exact this
  all_goals rw [hi]; simp

theorem example_enterable : Enterable exampleBrowser exampleForm := by
  refine ⟨example_texts, by intro s; cases s <;> decide +kernel, ?_⟩
  intro s hs n hn
  simp only [exampleBrowser] at hn
  split at hn
  · cases hn; exact ⟨⟨1987, 0, by decide, by decide⟩, by decide⟩
  · cases hn

theorem example_entered (limit : Option Nat) (hl : ∀ n, limit = some n → 2 ≤ n) (body : List UInt8)
    (hb : body = jsBody examplePrint exampleBrowser exampleForm) :
    let files := (served limit (fun _ => false) exampleFiles [body]).2
    Starts files ∧ (startup files).val .vesselName = .str (utf8 exampleName) ∧ (startup files).val .year = .int 1987 ∧
      (startup files).val .mqttHost = .str (bs "h") := by
  have := C134_entered_partial hl (fun _ => false) exampleFiles example_start [] example_prints exampleBrowser example_enterable
    (exampleFiles_savable limit)
  rw [← hb] at this
  simp only [List.nil_append] at this
  obtain ⟨h0, h1, h2, h3, _⟩ := this
  have e1 : exampleBrowser.parseInt (exampleForm.text .year) = some 1987 := by decide +kernel
  have e2 : (served limit (fun _ => false) exampleFiles []).1 = (boot exampleFiles).1 := rfl
  have e3 : (boot exampleFiles).1.val .mqttHost = .str (bs "h") := by decide +kernel
  rw [e2] at h1 h2 h3
  have h2 := h2 .vesselName (by simp) (by unfold Unset; decide +kernel)
  obtain ⟨k, h3, _, h4⟩ := (h3 .year (by simp) (by unfold Unset; decide +kernel)).2 1987 e1
  rw [h4 (by decide)] at h3
  have h1 := h1 .mqttHost (by decide +kernel) (by unfold Unset; decide +kernel)
  rw [e3] at h1
  exact ⟨h0, h2, h3, h1⟩

/-- A name with quotation marks, a backslash, a line break and a control character, and a year, are there after the next start, and so
is the host that was in the file. -/
example (limit : Option Nat) (hl : ∀ n, limit = some n → 2 ≤ n) :
    let files := (served limit (fun _ => false) exampleFiles [jsBody examplePrint exampleBrowser exampleForm]).2
    Starts files ∧ (startup files).val .vesselName = .str (utf8 exampleName) ∧ (startup files).val .year = .int 1987 ∧
      (startup files).val .mqttHost = .str (bs "h") := example_entered limit hl _ rfl

/-- Three submissions on two days. -/
example : Starts (sessions (some 10000) (fun _ => false) examplePrint exampleBrowser exampleFiles [[exampleForm, exampleForm], [exampleForm]]) :=
  (C134_always_partial (by rintro n ⟨⟩; decide) _ _ example_prints _ _
    (by
      intro forms h f hf
      have : f = exampleForm := by
        simp only [List.mem_cons, List.not_mem_nil, or_false] at h
        rcases h with rfl | rfl <;> simpa using hf
      rw [this]
      exact example_enterable) example_start (exampleFiles_savable none)).1

example : served (some 10000) (fun _ => false) exampleFiles ([] ++ [jsBody examplePrint hugeBrowser hugeForm]) =
    served (some 10000) (fun _ => false) exampleFiles [] := by
  refine C134_huge_false (some 10000) _ _ [] example_prints hugeBrowser (s := .mmsi) (n := 10 ^ 21) ?_ (by simp) (by decide +kernel)
    ⟨5 ^ 21, 21, by decide, by decide⟩ (by decide +kernel)
  intro s
  cases s with
  | vesselName => exact ⟨"Argo".toList, Json.bs_eq _⟩
  | mmsi => exact ⟨"1000000000000000000000".toList, Json.bs_eq _⟩
  | _ => exact ⟨[], rfl⟩

/-- A name with a NUL. -/
def nulForm : Form where
  text s := match s with
    | .vesselName => utf8 [Char.ofNat 0]
    | _ => []
  checked _ := false

example : ¬ Starts (served (some 10000) (fun _ => false) exampleFiles ([] ++ [jsBody examplePrint exampleBrowser nulForm])).2 := by
  refine C134_nul_false (limit := some 10000) (by rintro n ⟨⟩; decide) _ _ [] example_prints exampleBrowser (s := .vesselName) ?_ ?_ ?_
    (by simp) (by show Unset (boot exampleFiles).1 _; unfold Unset; decide +kernel) (by decide +kernel)
  · intro s
    cases s with
    | vesselName => exact ⟨_, rfl⟩
    | _ => exact ⟨[], rfl⟩
  · intro s hs n hn
    simp only [exampleBrowser] at hn
    split at hn
    · cases hn; exact ⟨⟨1987, 0, by decide, by decide⟩, by decide⟩
    · cases hn
  · have : (boot exampleFiles).1.interfaces = [] := by decide +kernel
    intro e he
    have he : e ∈ (boot exampleFiles).1.interfaces := he
    rw [this] at he
    cases he

end Argo.Toml
