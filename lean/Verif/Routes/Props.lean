import Verif.Routes.Model
import Verif.Main.ApiProps
import Mathlib.Data.List.Nodup

set_option autoImplicit false

/-!
# C86: HTTP routing
-/

namespace Argo.Routes

open Argo
open Argo.Signalk (bs)

/-! ### ServeMux: the longest match does not depend on the order of registration -/

theorem longest_none {regs : List (Str × Target)} {path : Str} (h : longest regs path = none) :
    ∀ q ∈ regs, pathMatch q.1 path = false := by
  induction regs with
  | nil => intro q hq; cases hq
  | cons b regs ihb =>
    intro q hq
    unfold longest at h
    cases hlb : longest regs path with
    | none =>
      rw [hlb] at h
      simp only at h
      split at h
      · cases h
      · rename_i hx
        rcases List.mem_cons.1 hq with rfl | hq
        · simpa using hx
        · exact ihb hlb q hq
    | some c =>
      rw [hlb] at h
      simp only at h
      split at h <;> cases h

theorem longest_some {regs : List (Str × Target)} {path : Str} {r : Str × Target}
    (h : longest regs path = some r) :
    r ∈ regs ∧ pathMatch r.1 path = true ∧ ∀ q ∈ regs, pathMatch q.1 path = true → q.1.length ≤ r.1.length := by
  induction regs generalizing r with
  | nil => cases h
  | cons a regs ih =>
    unfold longest at h
    cases hl : longest regs path with
    | none =>
      rw [hl] at h
      simp only at h
      split at h
      · injection h with h
        subst h
        refine ⟨by simp, by assumption, ?_⟩
        intro q hq hm
        rcases List.mem_cons.1 hq with rfl | hq
        · exact Nat.le_refl _
        · exfalso
          rw [longest_none hl q hq] at hm
          cases hm
      · cases h
    | some b =>
      obtain ⟨i1, i2, i3⟩ := ih hl
      rw [hl] at h
      simp only at h
      split at h
      · rename_i hc
        simp only [Bool.and_eq_true, decide_eq_true_eq] at hc
        injection h with h
        subst h
        refine ⟨by simp, hc.1, ?_⟩
        intro q hq hm
        rcases List.mem_cons.1 hq with rfl | hq
        · exact Nat.le_refl _
        · have := i3 q hq hm; omega
      · rename_i hc
        simp only [Bool.and_eq_true, decide_eq_true_eq, not_and] at hc
        injection h with h
        subst h
        refine ⟨by simp [i1], i2, ?_⟩
        intro q hq hm
        rcases List.mem_cons.1 hq with rfl | hq
        · have := hc hm; omega
        · exact i3 q hq hm

theorem pathMatch_prefix {pat path : Str} (h : pathMatch pat path = true) : pat <+: path := by
  unfold pathMatch at h
  split at h
  · exact List.isPrefixOf_iff_prefix.1 h
  · rw [beq_iff_eq] at h; rw [h]; exact List.prefix_refl _

theorem longest_perm {regs regs' : List (Str × Target)} (hp : regs.Perm regs')
    (hn : (regs.map Prod.fst).Nodup) (path : Str) : longest regs path = longest regs' path := by
  cases h : longest regs path with
  | none =>
    cases h' : longest regs' path with
    | none => rfl
    | some r =>
      obtain ⟨h1, h2, -⟩ := longest_some h'
      have := longest_none h r (hp.mem_iff.2 h1)
      rw [h2] at this; cases this
  | some r =>
    obtain ⟨h1, h2, h3⟩ := longest_some h
    cases h' : longest regs' path with
    | none =>
      have := longest_none h' r (hp.mem_iff.1 h1)
      rw [h2] at this; cases this
    | some r' =>
      obtain ⟨g1, g2, g3⟩ := longest_some h'
      have e1 := h3 r' (hp.mem_iff.2 g1) g2
      have e2 := g3 r (hp.mem_iff.1 h1) h2
      have ep : r.1 = r'.1 := by
        have hlen : r.1.length = r'.1.length := by omega
        obtain ⟨t, ht⟩ := pathMatch_prefix h2
        obtain ⟨t', ht'⟩ := pathMatch_prefix g2
        exact (List.append_inj (ht.trans ht'.symm) hlen).1
      have hr' := hp.mem_iff.2 g1
      congr 1
      exact List.inj_on_of_nodup_map hn h1 hr' ep

/-! ### Dispatch -/

/-- All four registrations have been made, in whatever order the goroutines ran. -/
def AllRegistered (regs : List (Str × Target)) : Prop := regs.Perm [regApi, regUi, regWs, regStats]

theorem AllRegistered.longest {regs : List (Str × Target)} (h : AllRegistered regs) (path : Str) :
    longest regs path = Routes.longest [regApi, regUi, regWs, regStats] path :=
  longest_perm h (h.map Prod.fst |>.nodup_iff.2 (by decide +kernel)) path

theorem AllRegistered.slash {regs : List (Str × Target)} (h : AllRegistered regs) (path : Str) :
    slashRedirect regs path = slashRedirect [regApi, regUi, regWs, regStats] path := by
  have ha : ∀ f : Str × Target → Bool, regs.any f = [regApi, regUi, regWs, regStats].any f := by
    intro f
    rw [Bool.eq_iff_iff, List.any_eq_true, List.any_eq_true]
    exact ⟨fun ⟨x, h1, h2⟩ => ⟨x, h.mem_iff.1 h1, h2⟩, fun ⟨x, h1, h2⟩ => ⟨x, h.mem_iff.2 h1, h2⟩⟩
  unfold slashRedirect
  rw [ha, ha]

theorem match_pre {p path : Str} (h : p.getLast? = some 47) : pathMatch p path = p.isPrefixOf path := by
  unfold pathMatch; rw [if_pos h]

theorem match_api (path : Str) : pathMatch regApi.1 path = (bs "/signalk/v1/api/").isPrefixOf path :=
  match_pre (by decide +kernel)
theorem match_ui (path : Str) : pathMatch regUi.1 path = (bs "/").isPrefixOf path :=
  match_pre (by decide +kernel)
theorem match_ws (path : Str) : pathMatch regWs.1 path = (bs "/signalk/v1/").isPrefixOf path :=
  match_pre (by decide +kernel)
theorem match_stats (path : Str) : pathMatch regStats.1 path = (bs "/ws/stats" == path) := by
  unfold pathMatch; rw [if_neg (by decide +kernel)]; rfl

theorem len_api : regApi.1.length = 16 := by decide +kernel
theorem len_ui : regUi.1.length = 1 := by decide +kernel
theorem len_ws : regWs.1.length = 12 := by decide +kernel
theorem len_stats : regStats.1.length = 9 := by decide +kernel

/-- Longest match among the four registrations. -/
theorem longest_full (path : Str) :
    longest [regApi, regUi, regWs, regStats] path =
      if bs "/signalk/v1/api/" <+: path then some regApi
      else if bs "/signalk/v1/" <+: path then some regWs
      else if path = bs "/ws/stats" then some regStats
      else if bs "/" <+: path then some regUi
      else none := by
  have i1 : bs "/signalk/v1/api/" <+: path → bs "/signalk/v1/" <+: path := fun h =>
    List.IsPrefix.trans (by decide +kernel) h
  have i2 : bs "/signalk/v1/" <+: path → bs "/" <+: path := fun h =>
    List.IsPrefix.trans (by decide +kernel) h
  have i3 : path = bs "/ws/stats" → bs "/" <+: path ∧ ¬ bs "/signalk/v1/" <+: path := by
    intro h; subst h; exact ⟨by decide +kernel, by decide +kernel⟩
  have e1 : (bs "/signalk/v1/api/").isPrefixOf path = decide (bs "/signalk/v1/api/" <+: path) := by
    rw [Bool.eq_iff_iff]; simp
  have e2 : (bs "/signalk/v1/").isPrefixOf path = decide (bs "/signalk/v1/" <+: path) := by
    rw [Bool.eq_iff_iff]; simp
  have e3 : (bs "/").isPrefixOf path = decide (bs "/" <+: path) := by
    rw [Bool.eq_iff_iff]; simp
  have e4 : (bs "/ws/stats" == path) = decide (path = bs "/ws/stats") := by
    rw [Bool.eq_iff_iff, beq_iff_eq, decide_eq_true_eq]; exact eq_comm
  simp only [longest, match_api, match_ui, match_ws, match_stats, e1, e2, e3, e4, decide_eq_true_eq]
  by_cases h4 : path = bs "/ws/stats"
  · obtain ⟨j1, j2⟩ := i3 h4
    have j3 := mt i1 j2
    simp [h4 ▸ j1, h4 ▸ j2, h4 ▸ j3, h4, len_ui, len_stats, len_ws, len_api]
  · by_cases h1 : bs "/signalk/v1/api/" <+: path
    · have h2 := i1 h1
      have h3 := i2 h2
      simp [h1, h2, h3, h4, len_ui, len_ws, len_api]
    · by_cases h2 : bs "/signalk/v1/" <+: path
      · have h3 := i2 h2
        simp [h1, h2, h3, h4, len_ui, len_ws]
      · by_cases h3 : bs "/" <+: path <;> simp [h1, h2, h3, h4]

theorem slash_full (path : Str) (h : slashRedirect [regApi, regUi, regWs, regStats] path = true) :
    path = bs "/signalk/v1/api" ∨ path = [] ∨ path = bs "/signalk/v1" := by
  unfold slashRedirect at h
  simp only [Bool.and_eq_true, List.any_cons, List.any_nil, Bool.or_eq_true, beq_iff_eq] at h
  have key : ∀ l : Str, ∀ q : Str, l = q ++ [47] → q = l.dropLast := by
    intro l q e; rw [e]; simp
  rcases h.1.2 with h' | h' | h' | h' | h'
  · left; rw [key _ _ h']; decide +kernel
  · right; left; rw [key _ _ h']; decide +kernel
  · right; right; rw [key _ _ h']; decide +kernel
  · exfalso
    have := congrArg List.getLast? h'
    simp only [List.getLast?_append, List.getLast?_singleton] at this
    revert this
    rw [show regStats.1.getLast? = some 115 by decide +kernel]
    simp
  · cases h'

/-- The answer once everything is registered. -/
theorem serve_full {clean : Str → Str} {regs : List (Str × Target)} (h : AllRegistered regs)
    (apps added : List Str) {path : Str} (hc : clean path = path)
    (hs : path ≠ bs "/signalk/v1/api" ∧ path ≠ [] ∧ path ≠ bs "/signalk/v1") :
    serve clean true regs apps added path = some
      (if bs "/signalk/v1/api/" <+: path then muxServe apiRoutes path
      else if bs "/signalk/v1/" <+: path then .ws
      else if path = bs "/ws/stats" then .stats
      else if bs "/" <+: path then muxServe (uiRoutes apps added) path
      else .notFound) := by
  have hsl : slashRedirect regs path = false := by
    rw [h.slash]
    cases hb : slashRedirect [regApi, regUi, regWs, regStats] path with
    | false => rfl
    | true =>
      rcases slash_full path hb with e | e | e
      · exact absurd e hs.1
      · exact absurd e hs.2.1
      · exact absurd e hs.2.2
  unfold serve
  simp only [Bool.not_true, Bool.false_eq_true, if_false, hc, ne_eq, not_true_eq_false, hsl, h.longest,
    longest_full]
  by_cases h1 : bs "/signalk/v1/api/" <+: path
  · simp only [if_pos h1, regApi]
  · simp only [if_neg h1]
    by_cases h2 : bs "/signalk/v1/" <+: path
    · simp only [if_pos h2, regWs]
    · simp only [if_neg h2]
      by_cases h3 : path = bs "/ws/stats"
      · simp only [if_pos h3, regStats]
      · simp only [if_neg h3]
        by_cases h4 : bs "/" <+: path
        · simp only [if_pos h4, regUi]
        · simp only [if_neg h4]

/-! ## C86 -/

/-- C86: nothing at all is served when WebSockets are disabled, not even the API and the pages. -/
theorem C86_disabled (clean : Str → Str) (regs : List (Str × Target)) (apps added : List Str) (path : Str) :
    serve clean false regs apps added path = none := rfl

/-- C86: a path that is not clean is redirected to the clean one. -/
theorem C86_clean (clean : Str → Str) (regs : List (Str × Target)) (apps added : List Str) (path : Str)
    (h : clean path ≠ path) : serve clean true regs apps added path = some (.redirect (clean path)) := by
  simp [serve, h]

theorem api_mux (rest : Str) :
    muxServe apiRoutes (bs "/signalk/v1/api/" ++ rest) =
      if rest = [] then .apiHome
      else if rest = bs "messages" ∨ rest = bs "messages/" then .apiIndex
      else if bs "messages/" <+: rest ∧ 47 ∉ rest.drop 9 then .apiDetails (rest.drop 9)
      else if rest = bs "control/send" then .apiSend
      else .notFound := by
  have b1 : bs "/signalk/v1/api/messages" = bs "/signalk/v1/api/" ++ bs "messages" := by decide +kernel
  have b2 : bs "/signalk/v1/api/messages/" = bs "/signalk/v1/api/" ++ bs "messages/" := by decide +kernel
  have b3 : bs "/signalk/v1/api/control/send" = bs "/signalk/v1/api/" ++ bs "control/send" := by decide +kernel
  have l2 : (bs "messages/").length = 9 := by decide +kernel
  have c0 : bs "/signalk/v1/api/" ++ rest = bs "/signalk/v1/api/" ↔ rest = [] := by simp
  simp only [apiRoutes, muxServe, Pat.matches, c0, b1, b2, b3, List.append_cancel_left_eq]
  have hd : (bs "/signalk/v1/api/" ++ rest).drop (bs "/signalk/v1/api/" ++ bs "messages/").length = rest.drop 9 := by
    rw [List.length_append, l2, List.drop_length_add_append]
  have hp : ((bs "/signalk/v1/api/" ++ bs "messages/").isPrefixOf (bs "/signalk/v1/api/" ++ rest) = true) ↔
      bs "messages/" <+: rest := by
    rw [List.isPrefixOf_iff_prefix, List.prefix_append_right_inj]
  simp only [hd, hp]
  by_cases h0 : rest = []
  · simp [h0]
  · by_cases h1 : rest = bs "messages"
    · simp [h1, show bs "messages" ≠ [] by decide +kernel]
    · by_cases h2 : rest = bs "messages/"
      · simp [h2, show bs "messages/" ≠ [] by decide +kernel, show bs "messages/" ≠ bs "messages" by decide +kernel]
      · simp only [if_neg h0, h1, h2, or_self, if_false]
        by_cases hm : bs "messages/" <+: rest
        · have hne : rest.drop 9 ≠ [] := by
            intro e
            obtain ⟨t, ht⟩ := hm
            have : t = [] := by
              have hx : rest.drop 9 = t := by rw [← ht, ← l2, List.drop_left]
              rw [← hx, e]
            exact h2 (by rw [← ht, this, List.append_nil])
          by_cases hs : (47 : UInt8) ∉ rest.drop 9
          · simp [hm, hne, hs]
          · by_cases h4 : rest = bs "control/send"
            · subst h4; exact absurd hm (by decide +kernel)
            · simp [hs, h4]
        · by_cases h4 : rest = bs "control/send"
          · simp [h4, h4 ▸ hm]
          · simp [hm, h4]

/-- C86: the API.  Once everything is registered, a clean path below /signalk/v1/api/ is answered by the
home page, the message index, the details of a non-empty key without slash, or the control handler —
exactly as listed — and by 404 otherwise, whatever apps are installed. -/
theorem C86_api {clean : Str → Str} {regs : List (Str × Target)} (h : AllRegistered regs)
    (apps added : List Str) (rest : Str)
    (hc : clean (bs "/signalk/v1/api/" ++ rest) = bs "/signalk/v1/api/" ++ rest) :
    let answer := serve clean true regs apps added (bs "/signalk/v1/api/" ++ rest)
    (rest = [] → answer = some .apiHome) ∧
    (rest = bs "messages" ∨ rest = bs "messages/" → answer = some .apiIndex) ∧
    (∀ key, rest = bs "messages/" ++ key → key ≠ [] → 47 ∉ key → answer = some (.apiDetails key)) ∧
    (rest = bs "control/send" → answer = some .apiSend) ∧
    (rest ≠ [] → rest ≠ bs "messages" → rest ≠ bs "messages/" → rest ≠ bs "control/send" →
      (∀ key, rest = bs "messages/" ++ key → 47 ∈ key) → answer = some .notFound) := by
  have hne : ∀ q : Str, q.length < 16 → bs "/signalk/v1/api/" ++ rest ≠ q := by
    intro q hq e
    have := congrArg List.length e
    rw [List.length_append, show (bs "/signalk/v1/api/").length = 16 by decide +kernel] at this
    omega
  have hs := serve_full h apps added hc ⟨hne _ (by decide +kernel), hne _ (by decide +kernel),
    hne _ (by decide +kernel)⟩
  rw [if_pos (List.prefix_append _ _), api_mux] at hs
  have l2 : (bs "messages/").length = 9 := by decide +kernel
  simp only [hs, Option.some.injEq]
  refine ⟨fun e => by rw [if_pos e], ?_, ?_, ?_, ?_⟩
  · intro e
    rw [if_neg (by rcases e with rfl | rfl <;> decide +kernel), if_pos e]
  · rintro key rfl hk hk'
    have hd : (bs "messages/" ++ key).drop 9 = key := by rw [← l2, List.drop_left]
    rw [if_neg (by simp [hk]), if_neg, if_pos ⟨List.prefix_append _ _, by rw [hd]; exact hk'⟩, hd]
    rintro (e | e)
    · have := congrArg List.length e
      rw [List.length_append, l2, show (bs "messages").length = 8 by decide +kernel] at this
      omega
    · exact hk (by simpa using e)
  · rintro rfl; decide +kernel
  · intro h0 h1 h2 h3 h4
    rw [if_neg h0, if_neg (by simp [h1, h2]), if_neg, if_neg h3]
    rintro ⟨⟨t, ht⟩, h6⟩
    have hd : rest.drop 9 = t := by rw [← ht, ← l2, List.drop_left]
    exact h6 (by rw [hd]; exact h4 t ht.symm)

/-- C86: WebSocket endpoints.  Once everything is registered, a successful WebSocket handshake on a clean
path joins the delta stream exactly on /signalk/v1/stream and the statistics exactly on /ws/stats; every
other path below /signalk/v1/ outside the API accepts the handshake and then never sends anything
(/signalk/v1/api itself is redirected). -/
theorem C86_websockets {clean : Str → Str} {regs : List (Str × Target)} (h : AllRegistered regs)
    (apps added : List Str) (path : Str) (hc : clean path = path) (j : Joined) :
    ((serve clean true regs apps added path).bind fun hd => joins hd path) = some j ↔
      (j = .deltas ∧ path = bs "/signalk/v1/stream") ∨ (j = .statistics ∧ path = bs "/ws/stats") ∨
      (j = .nothing ∧ bs "/signalk/v1/" <+: path ∧ ¬ bs "/signalk/v1/api/" <+: path ∧
        path ≠ bs "/signalk/v1/stream" ∧ path ≠ bs "/signalk/v1/api") := by
  have hnj : ∀ (rs : List (Pat × (Str → Str → Handler))) (path : Str),
      (∀ r ∈ rs, ∀ k, joins (r.2 path k) path = none) → joins (muxServe rs path) path = none := by
    intro rs path
    induction rs with
    | nil => intro _; rfl
    | cons r rs ih =>
      intro hr
      obtain ⟨p, f⟩ := r
      unfold muxServe
      cases p.matches path with
      | some key => exact hr (p, f) (by simp) key
      | none => exact ih (fun r hr' => hr r (by simp [hr']))
  have hstrip : ∀ (p : Str) (f : Str → Handler), (∀ x, joins (f x) path = none) → joins (stripped p f path) path = none := by
    intro p f hf; unfold stripped; split
    · exact hf _
    · rfl
  have hapi : joins (muxServe apiRoutes path) path = none := by
    apply hnj
    intro r hr k
    simp only [apiRoutes, List.mem_cons, List.not_mem_nil, or_false] at hr
    rcases hr with rfl | rfl | rfl | rfl | rfl <;> rfl
  have hui : joins (muxServe (uiRoutes apps added) path) path = none := by
    apply hnj
    intro r hr k
    simp only [uiRoutes, List.mem_append, List.mem_map, List.mem_cons, List.not_mem_nil, or_false] at hr
    rcases hr with (⟨a, -, rfl⟩ | rfl | rfl | rfl | rfl | rfl | rfl) | ⟨a, -, rfl⟩
    · exact hstrip _ _ (fun _ => rfl)
    · exact hstrip _ _ (fun _ => rfl)
    · rfl
    · rfl
    · rfl
    · rfl
    · rfl
    · exact hstrip _ _ (fun _ => rfl)
  by_cases hsl : slashRedirect regs path = true
  · have h1 := slash_full path (by rw [← h.slash]; exact hsl)
    have h2 : serve clean true regs apps added path = some (.redirect (path ++ [47])) := by
      simp [serve, hc, hsl]
    rw [h2]
    simp only [Option.bind_some, joins, reduceCtorEq, false_iff]
    rintro (⟨-, e⟩ | ⟨-, e⟩ | ⟨-, e, -, -, e2⟩)
    · rw [e] at h1; revert h1; decide +kernel
    · rw [e] at h1; revert h1; decide +kernel
    · rcases h1 with rfl | rfl | rfl
      · exact e2 rfl
      · revert e; decide +kernel
      · revert e; decide +kernel
  · have hs : path ≠ bs "/signalk/v1/api" ∧ path ≠ [] ∧ path ≠ bs "/signalk/v1" := by
      rw [h.slash] at hsl
      refine ⟨?_, ?_, ?_⟩ <;> rintro rfl <;> exact hsl (by decide +kernel)
    rw [serve_full h apps added hc hs]
    simp only [Option.bind_some]
    by_cases h1 : bs "/signalk/v1/api/" <+: path
    · rw [if_pos h1, hapi]
      simp only [reduceCtorEq, false_iff]
      rintro (⟨-, rfl⟩ | ⟨-, rfl⟩ | ⟨-, -, e, -⟩)
      · revert h1; decide +kernel
      · revert h1; decide +kernel
      · exact e h1
    · rw [if_neg h1]
      by_cases h2 : bs "/signalk/v1/" <+: path
      · rw [if_pos h2]
        have h3 : path ≠ bs "/ws/stats" := by rintro rfl; revert h2; decide +kernel
        simp only [joins, Option.some.injEq, h2, h1, h3, not_false_eq_true, true_and, and_false, false_or, hs.1, ne_eq, and_true]
        by_cases h4 : path = bs "/signalk/v1/stream"
        · simp [h4, eq_comm]
        · simp [h4, eq_comm]
      · rw [if_neg h2]
        have h4 : path ≠ bs "/signalk/v1/stream" := by rintro rfl; revert h2; decide +kernel
        by_cases h3 : path = bs "/ws/stats"
        · rw [if_pos h3]
          simp only [joins, Option.some.injEq, h3, and_true, false_and, and_false, or_false, false_or,
            show bs "/ws/stats" ≠ bs "/signalk/v1/stream" by decide +kernel,
            show ¬ bs "/signalk/v1/" <+: bs "/ws/stats" by decide +kernel]
          exact eq_comm
        · rw [if_neg h3]
          have : joins (if bs "/" <+: path then muxServe (uiRoutes apps added) path else Handler.notFound) path = none := by
            split
            · exact hui
            · rfl
          rw [this]
          simp [h2, h3, h4]

end Argo.Routes
