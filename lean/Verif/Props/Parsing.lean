import Verif.Lemmas.MaskMem
import Verif.Lemmas.Docs
import Verif.Spec.Outcome
import Mathlib.Data.List.Induction

/-! Properties of `Parse` as a whole: C29 to C33 and C47. -/

set_option linter.unusedSectionVars false

namespace GoSvg

open Spec

variable {F : Type} [GoFloat F] [GoEnv]

/-! ### C30, C31: error modes -/

theorem init_ml (m m' : ErrorMode) : (initCursor m' : Cursor F) = (initCursor m).ml m' [] := rfl

/-- C30: any two modes other than strict give the same status and the same picture. -/
theorem C30_lenient_modes_agree (fuel : Nat) {m m' : ErrorMode} (hm : m ≠ .strict) (hm' : m' ≠ .strict) (tokens : List Token)
    (fin : StreamEnd) : Outcome.quiet (parse (F := F) fuel m tokens fin) = Outcome.quiet (parse fuel m' tokens fin) := by
  have hE : EC [] (initCursor (F := F) m) (initCursor m') := ⟨m', [], rfl, hm', fun h => absurd h hm⟩
  have h := (readTokens_ref (F := F) (l0 := []) fuel tokens).run _ _ hE
  rcases h with ⟨hs, -⟩ | ⟨h, hE'⟩
  · exact absurd hs hm
  unfold parse
  rcases hr : readTokens fuel tokens (initCursor (F := F) m) with ⟨r, c⟩
  rcases hr' : readTokens fuel tokens (initCursor (F := F) m') with ⟨r', d⟩
  rw [hr, hr'] at h hE'
  dsimp only at h; subst h
  obtain ⟨k, l, hd, -, -⟩ := hE'
  dsimp only at hd; subst hd
  have hsvg : (c.ml k l).svg = c.svg := rfl
  cases r with
  | ok _ =>
    cases fin with
    | error e => rfl
    | eof => dsimp only; rw [hsvg]; split <;> rfl
  | err e => rfl
  | panic e => rfl
  | diverge => rfl

theorem parse_log {fuel : Nat} {m : ErrorMode} (hm : m ≠ .warn) (tokens : List Token) (fin : StreamEnd) :
    Outcome.logged (parse (F := F) fuel m tokens fin) = [] := by
  have h := (readTokens_grow (F := F) fuel tokens (initCursor m)).log
  obtain ⟨d, h, hd⟩ := h
  have hl : (readTokens fuel tokens (initCursor (F := F) m)).2.pc.log = [] := by rw [h, hd hm]; rfl
  unfold parse
  rcases hr : readTokens fuel tokens (initCursor (F := F) m) with ⟨r, c⟩
  rw [hr] at hl
  cases r with
  | ok _ =>
    cases fin with
    | error e => exact hl
    | eof => dsimp only; split <;> exact hl
  | err e => exact hl
  | panic e => rfl
  | diverge => rfl

/-- C30: ignore mode logs nothing (nor does any mode but warn). -/
theorem C30_only_warn_logs (fuel : Nat) {m : ErrorMode} (hm : m ≠ .warn) (tokens : List Token) (fin : StreamEnd) :
    Outcome.logged (parse (F := F) fuel m tokens fin) = [] := parse_log hm tokens fin

/-- C31: a success in strict mode is a success with the same picture in every other mode, and nothing is logged. -/
theorem C31_strict_success (fuel : Nat) (m : ErrorMode) {tokens : List Token} {fin : StreamEnd} {svg : Option (Svg F)} {log : List Msg}
    (h : parse fuel .strict tokens fin = .done svg none log) :
    log = [] ∧ parse fuel m tokens fin = .done svg none [] := by
  have hlog : log = [] := by
    have := parse_log (F := F) (fuel := fuel) (m := .strict) (by decide) tokens fin
    rw [h] at this; exact this
  refine ⟨hlog, ?_⟩
  subst hlog
  by_cases hm : m = .strict
  · rw [hm]; exact h
  have hE : EC [] (initCursor (F := F) .strict) (initCursor m) := ⟨m, [], rfl, hm, fun _ => rfl⟩
  have href := readTokens_ref (F := F) (l0 := []) fuel tokens
  have hrun := href.run _ _ hE
  have hk := href.keep (initCursor .strict)
  unfold parse at h ⊢
  rcases hr : readTokens fuel tokens (initCursor (F := F) .strict) with ⟨r, c⟩
  rcases hr' : readTokens fuel tokens (initCursor (F := F) m) with ⟨r', d⟩
  rw [hr] at h hrun hk
  rw [hr'] at hrun
  cases r with
  | ok u =>
    rcases hrun with ⟨-, hne⟩ | ⟨h', hE'⟩
    · exact absurd rfl (hne u)
    dsimp only at h'; subst h'
    obtain ⟨k, l, hd, -, hl⟩ := hE'
    have hl := hl (hk.2 rfl)
    dsimp only at hd; subst hd hl
    have hsvg : (c.ml k []).svg = c.svg := rfl
    have hlg : (c.ml k []).pc.log = [] := rfl
    cases fin with
    | error e => simp at h
    | eof =>
      dsimp only at h ⊢
      rw [hsvg, hlg]
      split at h
      · rename_i ht
        rw [if_pos ht]
        simp only [Outcome.done.injEq] at h
        rw [h.1]
      · simp at h
  | err e => simp at h
  | panic e => simp at h
  | diverge => simp at h

/-! ### C33: errors of the stream -/

theorem readTokens_quiet (fuel : Nat) : ∀ (ts : List Token), (∀ t ∈ ts, t = .other ∨ ∃ s, t = .chars s) → ∀ (c : Cursor F),
    c.inTitleText = false → c.inDescText = false → readTokens fuel ts c = (.ok (), c)
  | [], _, _, _, _ => rfl
  | t :: ts, h, c, h1, h2 => by
    have ht : readToken fuel t c = (.ok (), c) := by
      rcases h t List.mem_cons_self with rfl | ⟨s, rfl⟩
      · rfl
      · obtain ⟨pc, svg, ss, gr, it, id, ig, df, im, cd, mk⟩ := c
        dsimp only at h1 h2
        subst h1 h2
        rfl
    rw [readTokens, SM.bind_run, ht]
    exact readTokens_quiet fuel ts (fun t h' => h t (List.mem_cons_of_mem _ h')) c h1 h2

/-- C33: input without a tag yields an error and no picture. -/
theorem C33_no_element (fuel : Nat) (m : ErrorMode) {tokens : List Token} (h : ∀ t ∈ tokens, t = .other ∨ ∃ s, t = .chars s) :
    parse (F := F) fuel m tokens .eof = .done none (some .noElement) [] := by
  unfold parse
  rw [readTokens_quiet fuel tokens h _ rfl rfl]
  have : tokens.any Token.isStart = false := by
    rw [List.any_eq_false]
    intro t ht
    rcases h t ht with rfl | ⟨s, rfl⟩ <;> simp [Token.isStart]
  dsimp only
  rw [this]
  rfl

/-- C33: whenever a success is reported, there is a picture, the stream ended properly, there was a start tag, and stopping the
stream early at any place would have brought the stream's error and nothing worse. -/
theorem C33_success_consumes_all {fuel : Nat} {m : ErrorMode} {tokens : List Token} {fin : StreamEnd} {svg : Option (Svg F)} {log : List Msg}
    (h : parse fuel m tokens fin = .done svg none log) :
    fin = .eof ∧ (∃ s, svg = some s) ∧ (∃ name attrs, Token.start name attrs ∈ tokens) ∧
    ∀ pre post, tokens = pre ++ post → ∀ e, ∃ (s : Svg F) (l : List Msg), parse fuel m pre (.error e) = .done (some s) (some (.reader e)) l := by
  unfold parse at h
  rcases hr : readTokens fuel tokens (initCursor (F := F) m) with ⟨r, c⟩
  rw [hr] at h
  cases r with
  | ok u =>
    cases fin with
    | error e => simp at h
    | eof =>
      dsimp only at h
      split at h
      · rename_i ht
        simp only [Outcome.done.injEq] at h
        refine ⟨rfl, ⟨_, h.1.symm⟩, ?_, ?_⟩
        · rw [List.any_eq_true] at ht
          obtain ⟨t, ht, hs⟩ := ht
          cases t with
          | start n a => exact ⟨n, a, ht⟩
          | stop _ => cases hs
          | chars _ => cases hs
          | other => cases hs
        · rintro pre post rfl e
          rw [readTokens_append, SM.bind_run] at hr
          unfold parse
          rcases hp : readTokens fuel pre (initCursor (F := F) m) with ⟨r', d⟩
          rw [hp] at hr
          cases r' with
          | ok _ => exact ⟨_, _, rfl⟩
          | err _ => cases hr
          | panic _ => cases hr
          | diverge => cases hr
      · simp at h
  | err e => simp at h
  | panic e => simp at h
  | diverge => simp at h

/-- The outcome of reading a prefix, as seen by a stream that breaks off there. -/
theorem parse_error_inv {fuel : Nat} {m : ErrorMode} {pre : List Token} {e : Nat} {svg : Option (Svg F)} {err : Option Err} {log : List Msg}
    (h : parse fuel m pre (.error e) = .done svg err log) : ∃ r c, readTokens fuel pre (initCursor (F := F) m) = (r, c) ∧ svg = some c.svg ∧
      log = c.pc.log ∧ ((r = .ok () ∧ err = some (.reader e)) ∨ ∃ x, r = .err x ∧ err = some x) := by
  unfold parse at h
  rcases hr : readTokens fuel pre (initCursor (F := F) m) with ⟨r, c⟩
  rw [hr] at h
  cases r with
  | ok u => simp only [Outcome.done.injEq] at h; exact ⟨_, _, rfl, h.1.symm, h.2.2.symm, .inl ⟨rfl, h.2.1.symm⟩⟩
  | err x => simp only [Outcome.done.injEq] at h; exact ⟨_, _, rfl, h.1.symm, h.2.2.symm, .inr ⟨x, rfl, h.2.1.symm⟩⟩
  | panic e => simp at h
  | diverge => simp at h

/-- C33: an error of the stream is returned as is, together with what a stream of the same tokens that ends properly gives
(unless an element had failed before, or there was no element, where the proper end is an error of its own). -/
theorem C33_stream_error {fuel : Nat} {m : ErrorMode} {tokens : List Token} {svg : Option (Svg F)} {log : List Msg}
    (h : parse fuel m tokens .eof = .done svg none log) (e : Nat) :
    parse fuel m tokens (.error e) = .done svg (some (.reader e)) log := by
  unfold parse at h ⊢
  rcases hr : readTokens fuel tokens (initCursor (F := F) m) with ⟨r, c⟩
  rw [hr] at h
  cases r with
  | ok u =>
    dsimp only at h ⊢
    split at h
    · simp only [Outcome.done.injEq] at h; rw [h.1, h.2.2]
    · simp at h
  | err e => simp at h
  | panic e => simp at h
  | diverge => simp at h

/-- An error that comes from an element and not from the stream: two different failures of the stream bring the same. -/
theorem parse_element_error {fuel : Nat} {m : ErrorMode} {pre : List Token} {out : Outcome F}
    (h : parse fuel m pre (.error 0) = out) (h1 : parse fuel m pre (.error 1) = out) (post : List Token) (fin : StreamEnd) :
    parse fuel m (pre ++ post) fin = out := by
  unfold parse at h h1 ⊢
  rw [readTokens_append, SM.bind_run]
  rcases hr : readTokens fuel pre (initCursor (F := F) m) with ⟨r, c⟩
  rw [hr] at h h1
  cases r with
  | ok u => rw [← h1] at h; simp at h
  | err e => exact h
  | panic e => exact h
  | diverge => exact h

/-- C33: an error raised by an element stops parsing there: once the outcome does not depend on how the stream breaks off,
nothing that follows plays any part. -/
theorem C33_element_error_stops {fuel : Nat} {m : ErrorMode} {pre : List Token} {svg : Option (Svg F)} {err : Err} {log : List Msg}
    (h : parse fuel m pre .eof = .done svg (some err) log) (hp : ∃ t ∈ pre, ∃ name attrs, t = .start name attrs)
    (post : List Token) (fin : StreamEnd) : parse fuel m (pre ++ post) fin = .done svg (some err) log := by
  unfold parse at h ⊢
  rw [readTokens_append, SM.bind_run]
  rcases hr : readTokens fuel pre (initCursor (F := F) m) with ⟨r, c⟩
  rw [hr] at h
  cases r with
  | ok u =>
    have : pre.any Token.isStart = true := by
      rw [List.any_eq_true]
      obtain ⟨t, ht, n, a, rfl⟩ := hp
      exact ⟨_, ht, rfl⟩
    dsimp only at h
    rw [this] at h
    simp at h
  | err e => exact h
  | panic e => simp at h
  | diverge => simp at h

/-! ### C29: what has been emitted stays -/

theorem readTokens_svg {fuel : Nat} {m : ErrorMode} {tokens : List Token} {fin : StreamEnd} {s : Svg F} {err : Option Err} {log : List Msg}
    (h : parse fuel m tokens fin = .done (some s) err log) : (readTokens fuel tokens (initCursor (F := F) m)).2.svg = s ∧
      (readTokens fuel tokens (initCursor (F := F) m)).1.Tame := by
  unfold parse at h
  rcases hr : readTokens fuel tokens (initCursor (F := F) m) with ⟨r, c⟩
  rw [hr] at h
  cases r with
  | ok u =>
    cases fin with
    | error e => simp only [Outcome.done.injEq, Option.some.injEq] at h; exact ⟨h.1, trivial⟩
    | eof =>
      dsimp only at h
      split at h
      · simp only [Outcome.done.injEq, Option.some.injEq] at h; exact ⟨h.1, trivial⟩
      · simp at h
  | err e => simp only [Outcome.done.injEq, Option.some.injEq] at h; exact ⟨h.1, trivial⟩
  | panic e => simp at h
  | diverge => simp at h

theorem prefix_run (fuel : Nat) (m : ErrorMode) (pre post : List Token) : ∃ d : Cursor F,
    d = (readTokens fuel pre (initCursor (F := F) m)).2 ∧ GrowR d (readTokens fuel (pre ++ post) (initCursor (F := F) m)).2 ∧
      PathsOK d ∧ MemR d.svg.arrays (readTokens fuel (pre ++ post) (initCursor (F := F) m)).2.svg.arrays := by
  refine ⟨_, rfl, ?_⟩
  have hp : PathsOK (readTokens fuel pre (initCursor (F := F) m)).2 := (readTokens_maskPath fuel pre _ (pathsOK_init m)).1
  rw [readTokens_append, SM.bind_run]
  rcases hr : readTokens fuel pre (initCursor (F := F) m) with ⟨r, d⟩
  rw [hr] at hp
  cases r with
  | ok _ => exact ⟨readTokens_grow fuel post d, hp, (readTokens_maskPath fuel post d hp).2⟩
  | err _ => exact ⟨growR_pre.refl d, hp, memR_refl _⟩
  | panic _ => exact ⟨growR_pre.refl d, hp, memR_refl _⟩
  | diverge => exact ⟨growR_pre.refl d, hp, memR_refl _⟩

theorem read_take (a : List (List Str)) (s : Slice) : (s.read a).take 3 = ((a[s.arr]?.getD []).take 3).take s.len := by
  unfold Slice.read
  rw [List.take_take, List.take_take, Nat.min_comm, List.getD_eq_getElem?_getD]

/-- C29, partial: the paths collected when the stream breaks off somewhere are the first paths of every longer document, with
the same operations and the same style; and the names of their masks are the same as far as the third. Missing: the fourth
and later masks of a path may change, see `C29_fourth_mask_false`. -/
theorem C29_prefix_partial {fuel : Nat} {m : ErrorMode} {pre post : List Token} {e : Nat} {fin : StreamEnd} {s0 s1 : Svg F}
    {err0 err1 : Option Err} {log0 log1 : List Msg} (h0 : parse fuel m pre (.error e) = .done (some s0) err0 log0)
    (h1 : parse fuel m (pre ++ post) fin = .done (some s1) err1 log1) :
    s0.svgPaths <+: s1.svgPaths ∧ ∀ p ∈ s0.svgPaths,
      (maskNames s1 p).take 3 = (maskNames s0 p).take 3 ∧
      ((maskNames s0 p).length ≤ 3 → maskNames s1 p = maskNames s0 p) := by
  obtain ⟨h0, -⟩ := readTokens_svg h0
  obtain ⟨h1, -⟩ := readTokens_svg h1
  obtain ⟨d, hd, hg, hp, hm⟩ := prefix_run (F := F) fuel m pre post
  subst hd
  have hsp := hg.svgPaths
  have hp2 := hp.2
  rw [h0] at hsp hp2 hm
  rw [h1] at hsp hm
  refine ⟨hsp, fun p hmem => ?_⟩
  have hok := hp2 p hmem
  have e3 := hm.same _ hok.arr
  have h3 : (maskNames s1 p).take 3 = (maskNames s0 p).take 3 := by
    unfold maskNames
    rw [read_take, read_take, e3]
  refine ⟨h3, fun hl => ?_⟩
  have hl : p.style.masks.len ≤ 3 := by
    have h4 := hok.full
    have h5 := hok.le
    unfold maskNames Slice.read at hl
    rw [List.length_take, List.getD_eq_getElem?_getD] at hl
    omega
  have : ∀ s : Svg F, maskNames s p = (maskNames s p).take 3 := by
    intro s
    unfold maskNames Slice.read
    rw [List.take_take, Nat.min_eq_right hl]
  rw [this s1, this s0, h3]

/-! ### C47: paths per tag -/

theorem shapeTags_drawing {name : Str} (h : name ∈ shapeTags ∨ name = "use".toList) : ∃ n ∈ drawing, name = n.toList := by
  rcases h with h | rfl
  · simp only [shapeTags, List.mem_cons, List.not_mem_nil, or_false] at h
    rcases h with rfl | rfl | rfl | rfl | rfl | rfl | rfl
    exacts [⟨"line", by decide, rfl⟩, ⟨"rect", by decide, rfl⟩, ⟨"circle", by decide, rfl⟩, ⟨"ellipse", by decide, rfl⟩,
      ⟨"polyline", by decide, rfl⟩, ⟨"polygon", by decide, rfl⟩, ⟨"path", by decide, rfl⟩]
  · exact ⟨"use", by decide, rfl⟩

theorem readTokens_snoc (fuel : Nat) (ts : List Token) (t : Token) (c : Cursor F) :
    readTokens fuel (ts ++ [t]) c = (do readTokens fuel ts; readToken fuel t : CM F Unit) c := by
  rw [readTokens_append, SM.bind_run, SM.bind_run]
  rcases readTokens fuel ts c with ⟨r, d⟩
  cases r with
  | ok _ =>
    show (readToken fuel t >>= fun _ => pure ()) d = readToken fuel t d
    rw [SM.bind_run]
    rcases readToken fuel t d with ⟨r, d⟩
    cases r <;> rfl
  | _ => rfl

/-- Between tokens nothing drawn is waiting to be emitted. -/
theorem readTokens_clean (fuel : Nat) : ∀ (ts : List Token) (c : Cursor F), c.pc.path = [] → (readTokens fuel ts c).1.Tame →
    (readTokens fuel ts c).2.pc.path = []
  | [], _, h, _ => h
  | t :: ts, c, h, ht => by
    have ha := readToken_adds fuel t c h
    rw [readTokens, SM.bind_run] at ht ⊢
    rcases hr : readToken fuel t c with ⟨r, d⟩
    rw [hr] at ht ha
    cases r with
    | ok _ => obtain ⟨new, ha⟩ := ha trivial; exact readTokens_clean fuel ts d ha.clean ht
    | err _ => obtain ⟨new, ha⟩ := ha trivial; exact ha.clean
    | panic _ => exact absurd ht id
    | diverge => exact absurd ht id

/-- C47: one more token adds at most one path, at the end, and none unless it is the start tag of an element that draws. -/
theorem C47_one_path_per_tag {fuel : Nat} {m : ErrorMode} {pre : List Token} {t : Token} {e : Nat} {fin : StreamEnd} {s0 s1 : Svg F}
    {err0 err1 : Option Err} {log0 log1 : List Msg} (h0 : parse fuel m pre (.error e) = .done (some s0) err0 log0)
    (h1 : parse fuel m (pre ++ [t]) fin = .done (some s1) err1 log1) :
    s1.svgPaths = s0.svgPaths ∨ (Token.Draws t ∧ ∃ p, s1.svgPaths = s0.svgPaths ++ [p]) := by
  obtain ⟨h0, t0⟩ := readTokens_svg h0
  obtain ⟨h1, t1⟩ := readTokens_svg h1
  have hc := readTokens_clean fuel pre (initCursor (F := F) m) rfl t0
  rw [readTokens_snoc, SM.bind_run] at h1 t1
  rcases hr : readTokens fuel pre (initCursor (F := F) m) with ⟨r, c⟩
  rw [hr] at h0 hc h1 t1
  dsimp only at h0 hc
  subst h0
  cases r with
  | ok _ =>
    obtain ⟨new, ha⟩ := readToken_adds fuel t c hc t1
    have hp : s1.svgPaths = c.svg.svgPaths ++ new := by rw [← h1]; exact ha.paths
    match new, ha.one, ha.tag with
    | [], _, _ => exact .inl (by rw [hp]; simp)
    | [p], _, htag =>
      obtain ⟨n, a, rfl, hn⟩ := htag (by simp)
      obtain ⟨n', hn', rfl⟩ := shapeTags_drawing hn
      exact .inr ⟨⟨n', hn', a, rfl⟩, p, hp⟩
    | _ :: _ :: _, hlen, _ => simp at hlen
  | err _ => exact .inl (by rw [← h1])
  | panic _ => exact absurd t1 id
  | diverge => exact absurd t1 id

/-- C47: the paths are in the order of the start tags they come from. `at_` lists the positions of these tags in the
document: it is increasing, the tags are those of elements that draw, and the path number `i` is the one that is there after
the tag at `at_[i]` and not before. -/
theorem C47_document_order {fuel : Nat} {m : ErrorMode} {e : Nat} : ∀ (tokens : List Token) {s : Svg F}
    {err : Option Err} {log : List Msg}, parse fuel m tokens (.error e) = .done (some s) err log →
    ∃ at_ : List Nat, at_.length = s.svgPaths.length ∧ at_.Pairwise (· < ·) ∧ ∀ (i k : Nat), at_[i]? = some k →
      (∃ t, tokens[k]? = some t ∧ Token.Draws t) ∧
      ∃ (s0 s1 : Svg F) (err0 err1 : Option Err) (log0 log1 : List Msg),
        parse fuel m (tokens.take k) (.error e) = .done (some s0) err0 log0 ∧ s0.svgPaths = s.svgPaths.take i ∧
        parse fuel m (tokens.take (k + 1)) (.error e) = .done (some s1) err1 log1 ∧ s1.svgPaths = s.svgPaths.take (i + 1) := by
  intro tokens
  induction tokens using List.reverseRecOn with
  | nil =>
    intro s err log h
    refine ⟨[], ?_, List.Pairwise.nil, fun i k h => by simp at h⟩
    have : s = initSvg := (readTokens_svg h).1.symm
    rw [this]; rfl
  | append_singleton ts t ih =>
    intro s err log h
    obtain ⟨s0, err0, log0, h0⟩ : ∃ s0 err0 log0, parse (F := F) fuel m ts (.error e) = .done (some s0) err0 log0 := by
      have ht := (readTokens_svg h).2
      rw [readTokens_snoc, SM.bind_run] at ht
      unfold parse
      rcases hr : readTokens fuel ts (initCursor (F := F) m) with ⟨r, c⟩
      rw [hr] at ht
      cases r with
      | ok _ => exact ⟨_, _, _, rfl⟩
      | err _ => exact ⟨_, _, _, rfl⟩
      | panic _ => exact absurd ht id
      | diverge => exact absurd ht id
    obtain ⟨at_, hlen, hinc, hat⟩ := ih h0
    have hlt : ∀ (i k : Nat), at_[i]? = some k → k < ts.length := by
      intro i k hk
      obtain ⟨⟨t, ht, -⟩, -⟩ := hat i k hk
      exact (List.getElem?_eq_some_iff.1 ht).1
    -- positions in the shorter document, seen in the longer one
    have old : s0.svgPaths <+: s.svgPaths → ∀ (i k : Nat), at_[i]? = some k →
        (∃ t', (ts ++ [t])[k]? = some t' ∧ Token.Draws t') ∧
        ∃ (s0 s1 : Svg F) (err0 err1 : Option Err) (log0 log1 : List Msg),
          parse fuel m ((ts ++ [t]).take k) (.error e) = .done (some s0) err0 log0 ∧ s0.svgPaths = s.svgPaths.take i ∧
          parse fuel m ((ts ++ [t]).take (k + 1)) (.error e) = .done (some s1) err1 log1 ∧ s1.svgPaths = s.svgPaths.take (i + 1) := by
      intro hpre i k hk
      obtain ⟨⟨t', ht', hd⟩, a, b, ea, eb, la, lb, ha, ha', hb, hb'⟩ := hat i k hk
      have hkl := hlt i k hk
      have hil : i < s0.svgPaths.length := by rw [← hlen]; exact (List.getElem?_eq_some_iff.1 hk).1
      refine ⟨⟨t', by rw [List.getElem?_append_left hkl]; exact ht', hd⟩, a, b, ea, eb, la, lb, ?_, ?_, ?_, ?_⟩
      · rw [List.take_append_of_le_length (by omega)]; exact ha
      · rw [ha']; obtain ⟨q, hq⟩ := hpre; rw [← hq, List.take_append_of_le_length (by omega)]
      · rw [List.take_append_of_le_length (by omega)]; exact hb
      · rw [hb']; obtain ⟨q, hq⟩ := hpre; rw [← hq, List.take_append_of_le_length (by omega)]
    rcases C47_one_path_per_tag h0 h with hp | ⟨hd, p, hp⟩
    · exact ⟨at_, by rw [hp]; exact hlen, hinc, old (by rw [hp]; exact List.prefix_rfl)⟩
    · have old := old (by rw [hp]; exact List.prefix_append _ _)
      refine ⟨at_ ++ [ts.length], by rw [hp]; simp [hlen], ?_, ?_⟩
      · rw [List.pairwise_append]
        refine ⟨hinc, List.pairwise_singleton _ _, ?_⟩
        intro a ha b hb
        rw [List.mem_singleton] at hb
        subst hb
        obtain ⟨i, hi⟩ := List.mem_iff_getElem?.1 ha
        exact hlt i a hi
      · intro i k hk
        by_cases hi : i < at_.length
        · rw [List.getElem?_append_left hi] at hk
          exact old i k hk
        · rw [List.getElem?_append_right (by omega)] at hk
          have hi0 : i - at_.length = 0 := by
            rcases Nat.eq_zero_or_pos (i - at_.length) with h | h
            · exact h
            · rw [List.getElem?_eq_none (by show 1 ≤ _; exact h)] at hk; simp at hk
          rw [hi0] at hk
          simp only [List.getElem?_cons_zero, Option.some.injEq] at hk
          subst hk
          have hii : i = s0.svgPaths.length := by omega
          refine ⟨⟨t, by simp, hd⟩, s0, s, err0, err, log0, log, ?_, ?_, ?_, ?_⟩
          · rw [List.take_left']; exact h0; rfl
          · rw [hp, hii, List.take_left']; rfl
          · rw [List.take_of_length_le (by simp)]; exact h
          · rw [List.take_of_length_le (by rw [hp, hii]; simp)]

/-! ### C32: unknown elements -/

theorem drawFuncs_unknown {name : Str} (h : Unknown name) (fuel : Nat) (use : List Attr → CM F Unit) :
    drawFuncs fuel use name = none := by
  cases hd : drawFuncs fuel use name with
  | none => rfl
  | some df =>
    exfalso
    rcases drawFuncs_cases hd with ⟨h', -⟩ | ⟨h', -⟩ | ⟨h', -⟩ | ⟨h', -⟩ | ⟨h', -⟩ | ⟨h', -⟩ | ⟨h', -⟩ | ⟨h', -⟩ | ⟨h', -⟩ | ⟨h', -⟩ | ⟨h', -⟩
    · obtain ⟨n, hn, rfl⟩ := shapeTags_drawing (.inl h')
      exact h n (List.mem_append_right _ hn) rfl
    all_goals exact h _ (by decide) h'

theorem readStart_unknown {name : Str} (h : Unknown name) (fuel : Nat) (attrs : List Attr) {c : Cursor F}
    (hc : c.inDefs = false ∨ c.inGrad = true) :
    readStartElement fuel name attrs c = handleError (.cannotProcess name) c := by
  unfold readStartElement
  dsimp only
  rw [if_neg, drawFuncs_unknown h]
  rintro ⟨h1, h2⟩
  rcases hc with hc | hc
  · rw [hc] at h1; cases h1
  · exact h2 (.inr (.inr hc))

end GoSvg

namespace GoSvg

open Spec

section Examples

attribute [local instance] asciiEnv
attribute [local instance] dummyLibm

/-- Three nested groups with masks around two rectangles, each with a mask of its own. -/
def fourMasks : List Token :=
  [.start "svg".toList [], .start "g".toList (attrsOf [("mask", "url(#a)")]), .start "g".toList (attrsOf [("mask", "url(#b)")]),
   .start "g".toList (attrsOf [("mask", "url(#c)")])] ++
  elem "rect" [("width", "1"), ("height", "1"), ("mask", "url(#d)")]

/-- What the first rectangle is masked with. -/
def firstMasks (tokens : List Token) : Option (List Str) :=
  match parse (F := F64) 8 .strict tokens (.error 0) with
  | .done (some svg) _ _ => svg.svgPaths.head?.map (maskNames svg)
  | _ => none

/-- C29 is false for the fourth mask: a later sibling replaces it. -/
theorem C29_fourth_mask_false :
    firstMasks fourMasks = some ["a".toList, "b".toList, "c".toList, "d".toList] ∧
    firstMasks (fourMasks ++ elem "rect" [("width", "1"), ("height", "1"), ("mask", "url(#e)")]) =
      some ["a".toList, "b".toList, "c".toList, "e".toList] := by decide +kernel

/-- A document with a warning: `fill-rule="odd"` and an unknown element. -/
def sloppy : List Token :=
  elem "svg" [] (elem "path" [("d", "M0 0L1 1"), ("fill-rule", "odd")] ++ elem "blink" [] ++ elem "path" [("d", "M0 0L1 1")])

/-- C30 and C31 at work: strict mode reports an error, the other modes find two paths; warn mode logs both problems. -/
example : (∃ s, parse (F := F64) 8 .ignore sloppy .eof = .done (some s) none [] ∧ s.svgPaths.length = 2) ∧
    (Outcome.logged (parse (F := F64) 8 .warn sloppy .eof)).length = 2 ∧
    (∃ s e, parse (F := F64) 8 .strict sloppy .eof = .done (some s) (some e) []) := by
  have h : (match parse (F := F64) 8 .ignore sloppy .eof with
      | .done (some s) none [] => decide (s.svgPaths.length = 2) | _ => false) = true := by decide +kernel
  have h3 : (match parse (F := F64) 8 .strict sloppy .eof with
      | .done (some _) (some _) [] => true | _ => false) = true := by decide +kernel
  refine ⟨?_, by decide +kernel, ?_⟩
  · split at h
    · rename_i s hs; exact ⟨s, hs, of_decide_eq_true h⟩
    · cases h
  · split at h3
    · rename_i s e hs; exact ⟨s, e, hs⟩
    · cases h3

/-- A document that is fine in strict mode. -/
def fine : List Token := elem "svg" [] (elem "path" [("d", "M0 0L1 1")] ++ elem "path" [("d", "M0 0L2 1"), ("fill", "red")])

theorem fine_strict : ∃ s, parse (F := F64) 8 .strict fine .eof = .done (some s) none [] ∧ s.svgPaths.length = 2 := by
  have h : (match parse (F := F64) 8 .strict fine .eof with
      | .done (some s) none [] => decide (s.svgPaths.length = 2) | _ => false) = true := by decide +kernel
  split at h
  · rename_i s hs; exact ⟨s, hs, of_decide_eq_true h⟩
  · cases h

/-- C31 applied. -/
example : ∃ s, parse (F := F64) 8 .warn fine .eof = .done (some s) none [] := by
  obtain ⟨s, h, -⟩ := fine_strict
  exact ⟨s, (C31_strict_success 8 .warn h).2⟩

/-- C33 applied: a broken stream returns what there was. -/
example : ∃ s, parse (F := F64) 8 .strict fine (.error 7) = .done (some s) (some (.reader 7)) [] ∧ s.svgPaths.length = 2 := by
  obtain ⟨s, h, hl⟩ := fine_strict
  exact ⟨s, C33_stream_error h 7, hl⟩

/-- C33 applied: after an unknown element in strict mode nothing else is read. -/
example (post : List Token) : ∃ s, parse (F := F64) 8 .strict (elem "blink" [] ++ post) .eof =
    .done s (some (.reported (.cannotProcess "blink".toList))) [] := by
  have h : (match parse (F := F64) 8 .strict (elem "blink" []) .eof with
      | .done (some _) (some (.reported (.cannotProcess ['b', 'l', 'i', 'n', 'k']))) [] => true | _ => false) = true := by decide +kernel
  split at h
  · rename_i s hs
    exact ⟨some s, C33_element_error_stops hs ⟨_, List.mem_cons_self, _, _, rfl⟩ post .eof⟩
  · cases h

/-- C33 applied: comments and text only. -/
example : parse (F := F64) 8 .ignore [.other, .chars " ".toList] .eof = .done none (some .noElement) [] :=
  C33_no_element 8 .ignore (by
    intro t ht
    simp only [List.mem_cons, List.not_mem_nil, or_false] at ht
    rcases ht with rfl | rfl
    · exact .inl rfl
    · exact .inr ⟨_, rfl⟩)

/-- C47 and C29 applied to `fine`: two paths, at the second and the fourth token. -/
example : ∃ s : Svg F64, ∃ at_ : List Nat, parse (F := F64) 8 .strict fine (.error 0) = .done (some s) (some (.reader 0)) [] ∧
    at_.length = 2 ∧ at_.Pairwise (· < ·) := by
  obtain ⟨s, h, hl⟩ := fine_strict
  have h' := C33_stream_error h 0
  obtain ⟨at_, h1, h2, -⟩ := C47_document_order fine h'
  exact ⟨s, at_, h', h1.trans hl, h2⟩

end Examples

end GoSvg
