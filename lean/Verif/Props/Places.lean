import Verif.Lemmas.Places
import Verif.Lemmas.DocsNest
import Verif.Spec.Texts
import Verif.Props.Nesting

/-! C41 and C46: what stands inside `defs`, titles and descriptions. -/

set_option linter.unusedSectionVars false

namespace GoSvg

open Spec

variable {F : Type} [GoFloat F] [GoEnv]

open SM (get modify throw lift panic diverge forEach)

/-! ### C41 -/

/-- The drawing a parse has produced. -/
theorem parse_svg {fuel : Nat} {m : ErrorMode} {ts : List Token} {fin : StreamEnd} {s : Svg F} {e : Option Err} {l : List Msg}
    (h : parse (F := F) fuel m ts fin = .done (some s) e l) :
    (readTokens fuel ts (initCursor (F := F) m)).2.svg = s ∧ (readTokens fuel ts (initCursor (F := F) m)).1.Tame := by
  unfold parse at h
  rcases hr : readTokens fuel ts (initCursor (F := F) m) with ⟨r, c⟩
  rw [hr] at h
  cases r with
  | ok u =>
    cases fin with
    | error e => cases h; exact ⟨rfl, trivial⟩
    | eof => dsimp only at h; split at h <;> cases h; exact ⟨rfl, trivial⟩
  | err e => cases h; exact ⟨rfl, trivial⟩
  | panic e => cases h
  | diverge => cases h

theorem tidy_split {pre els : List Token} (ht : Tidy (pre ++ els)) : ∃ ch, openFrom [] pre = some ch ∧
    ∀ (B : Site → Prop) (fuel : Nat) (m : ErrorMode) (c : Cursor F), TokensOK B (pre ++ els) → readTokens fuel pre (initCursor m) = (.ok (), c) →
      TidyRest B ch els c := by
  obtain ⟨ch', hch'⟩ := Option.isSome_iff_exists.1 ht.nested
  obtain ⟨ch, hch, -⟩ := openFrom_prefix hch'
  refine ⟨ch, hch, fun B fuel m c hok h => ?_⟩
  have key : ∀ (ts : List Token) (a b : List Elem) (c c' : Cursor F), TidyRest B a (ts ++ els) c → openFrom a ts = some b →
      readTokens fuel ts c = (.ok (), c') → TidyRest B b els c' := by
    intro ts
    induction ts with
    | nil => intro a b c c' hj ho hr; cases ho; cases hr; exact hj
    | cons t ts ih =>
      intro a b c c' hj ho hr
      obtain ⟨a1, hst, ho⟩ := openFrom_cons ho
      rw [readTokens_cons, SM.bind_run] at hr
      rcases htk : readToken fuel t c with ⟨r, c1⟩
      rw [htk] at hr
      cases r with
      | ok u => exact ih a1 b c1 c' (tidyRest_step hj hst htk) ho hr
      | err e => cases hr
      | panic s => cases hr
      | diverge => cases hr
  exact key pre [] ch _ c (tidy_start m ht hok) hch h

/-- C41, partial: in a tidy document, tokens read while a `defs` is open — elements, end tags, character data — add no path, no
mask, no title and no description to the drawing, whether they are read without error or not. Missing: documents where the
content of `defs` holds another `defs`, or a gradient with something else than stops, see `C41_nested_defs_false` and
`C41_gradient_content_false`. -/
theorem C41_silent_partial {fuel : Nat} {m : ErrorMode} {pre body : List Token} {fin fin' : StreamEnd} {s s' : Svg F}
    {e e' : Option Err} {l l' : List Msg} (ht : Tidy (pre ++ body)) {ch : List Elem} (hch : openFrom [] pre = some ch)
    (hd : inside "defs" ch = true) (hb : WellNested body) (h : parse fuel m pre fin = .done (some s) e l)
    (h' : parse fuel m (pre ++ body) fin' = .done (some s') e' l') :
    s'.svgPaths = s.svgPaths ∧ s'.svgMasks = s.svgMasks ∧ s'.titles = s.titles ∧ s'.descriptions = s.descriptions := by
  obtain ⟨h1, h2⟩ := parse_svg h
  obtain ⟨h3, h4⟩ := parse_svg h'
  obtain ⟨ch1, hch1, hrest⟩ := tidy_split (F := F) ht
  rw [hch] at hch1
  cases hch1
  obtain ⟨rel, hrel⟩ := Option.isSome_iff_exists.1 hb
  rw [readTokens_append, SM.bind_run] at h3
  rcases hr : readTokens fuel pre (initCursor (F := F) m) with ⟨r, c⟩
  rw [hr] at h1 h2 h3
  cases r with
  | ok u =>
    have hj := hrest (· = .color) fuel m c (tokensOK_color _) hr
    have hp : c.pc.path = [] := by
      have := readTokens_clean fuel pre (initCursor (F := F) m) rfl (by rw [hr]; trivial)
      rwa [hr] at this
    have := silent_walk (fuel := fuel) ch hd body [] rel c hj hp hrel
    rw [← h1, ← h3]
    exact ⟨this.svgPaths, this.svgMasks, this.titles, this.descs⟩
  | err e => rw [← h1, ← h3]; exact ⟨rfl, rfl, rfl, rfl⟩
  | panic s => exact absurd h2 id
  | diverge => exact absurd h2 id

/-! ### C46 -/

/-- The texts collected so far, when those of the open element are continued. -/
def continued (l : List Str) (s : Str) : List Str :=
  match l.reverse with
  | [] => []
  | t :: r => r.reverse ++ [t ++ s]

theorem continued_snoc (l : List Str) (t s : Str) : continued (l ++ [t]) s = l ++ [t ++ s] := by
  unfold continued
  simp

theorem continued_append {l l' : List Str} {s : Str} (h : appendLast l s = some l') (s' : Str) :
    continued l' s' = continued l (s ++ s') := by
  obtain ⟨i, t, rfl, rfl⟩ := appendLast_split h
  rw [continued_snoc, continued_snoc, List.append_assoc]

/-- The titles (`n = "title"`) or descriptions of a document whose tokens do to them what is said. -/
theorem texts_walk {B : Site → Prop} {fuel : Nat} (n : String) (txt : Cursor F → List Str)
    (hname : ∀ ch a, TidyTag ch n.toList a → inside "defs" ch = false → inside n ch = false)
    (hdefs : n.toList ≠ "defs".toList)
    (hdef : ∀ ch a, TidyTag ch "defs".toList a → inside n ch = false)
    (hstart : ∀ ch name attrs ts c c' u, TidyRest B ch (.start name attrs :: ts) c → readToken fuel (.start name attrs) c = (.ok u, c') →
      txt c' = txt c ++ (if name = n.toList ∧ inside "defs" ch = false then [[]] else []))
    (hstop : ∀ name c c' u, readToken fuel (.stop name) c = (.ok u, c') → txt c' = txt c)
    (hchars : ∀ ch s ts c c' u, TidyRest B ch (.chars s :: ts) c → readToken fuel (.chars s) c = (.ok u, c') →
      (if inside n ch && !inside "defs" ch then appendLast (txt c) s else some (txt c)) = some (txt c')) :
    ∀ (ts : List Token) (ch ch' : List Elem) (c c' : Cursor F), TidyRest B ch ts c → openFrom ch ts = some ch' →
      ((inside n ch && !inside "defs" ch) = true → txt c ≠ []) →
      readTokens fuel ts c = (.ok (), c') →
      txt c' = (if inside n ch && !inside "defs" ch then continued (txt c) (charData (ts.takeWhile (· ≠ .stop n.toList))) else txt c) ++
        textsOf n ch ts
  | [], ch, ch', c, c', _, _, hne, hr => by
    cases hr
    split
    · rename_i hb
      obtain ⟨i, t, hit⟩ := List.eq_nil_or_concat (txt c) |>.resolve_left (hne hb)
      rw [hit, List.concat_eq_append, List.takeWhile_nil, charData, List.flatMap_nil, continued_snoc]
      simp [textsOf]
    · simp [textsOf]
  | t :: ts, ch, ch', c, c', hj, ho, hne, hr => by
    obtain ⟨ch1, hst, ho⟩ := openFrom_cons ho
    rw [readTokens_cons, SM.bind_run] at hr
    rcases htk : readToken fuel t c with ⟨r, c1⟩
    rw [htk] at hr
    have htidy := hj
    cases r with
    | err e => cases hr
    | panic s => cases hr
    | diverge => cases hr
    | ok u =>
      have hj1 := tidyRest_step hj hst htk
      have ih := texts_walk n txt hname hdefs hdef hstart hstop hchars ts ch1 ch' c1 c' hj1 ho
      cases t with
      | other =>
        cases hst
        cases htk
        have := ih hne hr
        rw [this]
        simp [charData, textsOf]
      | chars s =>
        cases hst
        have h1 := hchars ch _ ts c c1 u hj htk
        cases hb : (inside n ch && !inside "defs" ch) with
        | false =>
          rw [hb] at h1 ih
          have h1 : txt c = txt c1 := Option.some.inj h1
          rw [ih (fun h => nomatch h) hr, h1]
          simp [textsOf]
        | true =>
          rw [hb] at h1 ih
          have h1 : appendLast (txt c) _ = some (txt c1) := h1
          obtain ⟨i, t, e1, e2⟩ := appendLast_split h1
          rw [ih (fun _ => by rw [e2]; simp) hr]
          have := continued_append h1 (charData (ts.takeWhile (· ≠ .stop n.toList)))
          simp only [if_true]
          rw [this]
          simp [charData, textsOf]
      | stop nm =>
        cases hst
        rename_i e
        have h1 := hstop _ c c1 u htk
        have hP := hj.tidy.allowed.1
        by_cases hn : e.name = n.toList
        · -- the end of the text
          have hnd : inside "defs" (e :: ch1) = inside "defs" ch1 := inside_cons_ne (n := "defs") (e := e) (by rw [hn]; exact hdefs) ch1
          have hself : inside n (e :: ch1) = true := inside_cons_self hn ch1
          cases hd : inside "defs" ch1 with
          | true =>
            rw [hd] at ih
            simp only [Bool.not_true, Bool.and_false, Bool.false_eq_true, if_false] at ih
            rw [ih (fun h => absurd h id) hr, hnd, hd, h1]
            simp [textsOf]
          | false =>
            have hout : inside n ch1 = false := hname ch1 e.attrs (hn ▸ hP) hd
            rw [hout] at ih
            simp only [Bool.false_and, Bool.false_eq_true, if_false] at ih
            rw [ih (fun h => absurd h id) hr, hnd, hd, hself, h1]
            have hne' := hne (by rw [hself, hnd, hd]; rfl)
            obtain ⟨i, t, hit⟩ := List.eq_nil_or_concat (txt c) |>.resolve_left hne'
            rw [List.takeWhile_cons_of_neg (by simp [hn])]
            simp only [Bool.not_false, Bool.and_self, if_true]
            rw [hit, List.concat_eq_append, charData, List.flatMap_nil, continued_snoc]
            simp [textsOf]
        · have hsame : (inside n (e :: ch1) && !inside "defs" (e :: ch1)) = (inside n ch1 && !inside "defs" ch1) := by
            rw [inside_cons_ne hn]
            by_cases hdn : e.name = "defs".toList
            · have := hdef ch1 e.attrs (hdn ▸ hP)
              rw [this]; rfl
            · rw [inside_cons_ne (n := "defs") hdn]
          rw [hsame] at hne ⊢
          rw [ih (by rwa [h1]) hr, h1, List.takeWhile_cons_of_pos (by simp [hn])]
          simp [charData, textsOf]
      | start name attrs =>
        cases hst
        have h1 := hstart ch _ _ ts c c1 u hj htk
        have hP := (every_cons (.start ch _ _) hj.places).1
        by_cases hn : name = n.toList ∧ inside "defs" ch = false
        · rw [if_pos hn] at h1
          obtain ⟨rfl, hd⟩ := hn
          have hout := hname ch attrs hP hd
          have hin : (inside n (⟨n.toList, attrs⟩ :: ch) && !inside "defs" (⟨n.toList, attrs⟩ :: ch)) = true := by
            rw [inside_cons_self (e := ⟨n.toList, attrs⟩) rfl, inside_tag_ne "defs" hdefs, hd]; rfl
          rw [ih (fun _ => by rw [h1]; simp) hr, hin, hout]
          simp only [if_true, Bool.false_and, Bool.false_eq_true, if_false]
          rw [h1, continued_snoc, textsOf, if_pos ⟨rfl, hd⟩]
          simp
        · rw [if_neg hn, List.append_nil] at h1
          have hsame : (inside n (⟨name, attrs⟩ :: ch) && !inside "defs" (⟨name, attrs⟩ :: ch)) = (inside n ch && !inside "defs" ch) := by
            by_cases hd : inside "defs" ch = true
            · have hd' : inside "defs" (⟨name, attrs⟩ :: ch) = true := by rw [inside_cons, hd]; simp
              rw [hd', hd]; simp
            · have hd : inside "defs" ch = false := by simpa using hd
              have hnn : name ≠ n.toList := fun e => hn ⟨e, hd⟩
              rw [inside_tag_ne n hnn]
              by_cases hdn : name = "defs".toList
              · have := hdef ch attrs (hdn ▸ hP)
                rw [this]; rfl
              · rw [inside_tag_ne "defs" hdn]
          rw [hsame] at ih
          rw [ih (by rwa [h1]) hr, h1, textsOf, if_neg hn, List.takeWhile_cons_of_pos (by simp)]
          simp [charData]

/-- C46, partial: a tidy document read to its end without error has exactly one title per `title` element outside `defs`, and
one description per `desc`, in document order, each with the element's character data. Missing: titles within titles, see
`C46_nested_title_false`. -/
theorem C46_texts_partial {fuel : Nat} {m : ErrorMode} {tokens : List Token} {s : Svg F} {l : List Msg} (ht : Tidy tokens)
    (h : parse fuel m tokens .eof = .done (some s) none l) :
    s.titles = textsOf "title" [] tokens ∧ s.descriptions = textsOf "desc" [] tokens := by
  obtain ⟨h1, -⟩ := parse_svg h
  have hok : (readTokens fuel tokens (initCursor (F := F) m)).1 = .ok () := by
    unfold parse at h
    rcases hr : readTokens fuel tokens (initCursor (F := F) m) with ⟨r, c⟩
    rw [hr] at h
    cases r with
    | ok u => rfl
    | err e => cases h
    | panic e => cases h
    | diverge => cases h
  obtain ⟨ch, hch⟩ := Option.isSome_iff_exists.1 ht.nested
  have hj := tidy_start (F := F) (B := (· = .color)) m ht (tokensOK_color _)
  rcases hr : readTokens fuel tokens (initCursor (F := F) m) with ⟨r, c⟩
  rw [hr] at h1 hok
  dsimp only at h1 hok
  subst hok
  have hst : ∀ ch name attrs ts (c c' : Cursor F) u, TidyRest (· = .color) ch (.start name attrs :: ts) c →
      readToken fuel (.start name attrs) c = (.ok u, c') → _ := fun ch name attrs ts c c' u hj hr =>
    start_texts hj.inv hj.useFine hj.tidy.flags (every_cons (.start ch _ _) hj.places).1 hr
  have a := texts_walk (B := (· = .color)) (fuel := fuel) "title" (fun c : Cursor F => c.svg.titles)
    (fun ch a h hd => h.2.2.1 hd rfl) (by decide) (fun ch a h => (h.1 rfl).2.2.1)
    (fun ch name attrs ts c c' u hj hr => (hst ch name attrs ts c c' u hj hr).1) (fun name c c' u hr => (stop_texts hr).1)
    (fun ch s ts c c' u hj hr => by rw [← hj.tidy.flags.inTitle]; exact (chars_texts hr).1) tokens [] ch _ c hj hch (fun h => nomatch h) hr
  have b := texts_walk (B := (· = .color)) (fuel := fuel) "desc" (fun c : Cursor F => c.svg.descriptions)
    (fun ch a h hd => h.2.2.2.1 hd rfl) (by decide) (fun ch a h => (h.1 rfl).2.2.2)
    (fun ch name attrs ts c c' u hj hr => (hst ch name attrs ts c c' u hj hr).2) (fun name c c' u hr => (stop_texts hr).2)
    (fun ch s ts c c' u hj hr => by rw [← hj.tidy.flags.inDesc]; exact (chars_texts hr).2) tokens [] ch _ c hj hch (fun h => nomatch h) hr
  rw [← h1]
  exact ⟨a, b⟩

/-- C46: collecting text never makes the parser panic, whatever the document. -/
theorem C46_no_text_panic {fuel : Nat} {m : ErrorMode} {tokens : List Token} {fin : StreamEnd} :
    parse (F := F) fuel m tokens fin ≠ .panic .text := fun h => by
  rcases C34_panic_sites h with h | h <;> cases h

/-! ### C32 -/

theorem tidy_nil_split {pre : List Token} (ht : Tidy pre) {ch : List Elem} (hch : openFrom [] pre = some ch) (fuel : Nat) (m : ErrorMode)
    {c : Cursor F} (h : readTokens fuel pre (initCursor m) = (.ok (), c)) : TidyAt ch c := by
  obtain ⟨ch1, hch1, hrest⟩ := tidy_split (F := F) (pre := pre) (els := []) (by rwa [List.append_nil])
  rw [hch] at hch1
  cases hch1
  exact (hrest (· = .color) fuel m c (tokensOK_color _) h).tidy

/-- C32, strict mode, partial: an unknown element outside `defs` of a tidy document is an error. Missing: documents that are not tidy, see `C32_after_use_false`. -/
theorem C32_strict_partial {fuel : Nat} {pre rest : List Token} {name : Str} {attrs : List Attr} {fin : StreamEnd} {s : Option (Svg F)}
    {l : List Msg} (ht : Tidy pre) {ch : List Elem} (hch : openFrom [] pre = some ch) (hd : inside "defs" ch = false) (hn : Unknown name) :
    parse (F := F) fuel .strict (pre ++ .start name attrs :: rest) fin ≠ .done s none l := by
  intro h
  unfold parse at h
  rw [readTokens_append, SM.bind_run] at h
  have hmode := (readTokens_grow (F := F) fuel pre (initCursor .strict)).mode
  rcases hr : readTokens fuel pre (initCursor (F := F) .strict) with ⟨r, c⟩
  rw [hr] at h hmode
  cases r with
  | ok u =>
    have hc := (tidy_nil_split ht hch fuel .strict hr).flags.inDefs
    rw [hd] at hc
    dsimp only at h hmode
    have hs := pushStyle_elem attrs c
    have hF := pushStyle_flag attrs c
    have key : ∀ u, (readToken fuel (.start name attrs) c).1 ≠ .ok u := by
      intro u
      rw [readToken, SM.bind_run]
      rcases hp : pushStyle attrs c with ⟨r, d⟩
      rw [hp] at hs hF
      cases r with
      | ok u =>
        dsimp only
        rw [readStart_unknown hn fuel attrs (.inl (hF.inDefs.trans hc))]
        unfold handleError
        rw [if_pos (show d.pc.errorMode = .strict from hs.mode.trans hmode)]
        intro h; cases h
      | err e => intro h; cases h
      | panic e => intro h; cases h
      | diverge => intro h; cases h
    rw [readTokens_cons, SM.bind_run] at h
    rcases hk : readToken fuel (.start name attrs) c with ⟨r, d⟩
    rw [hk] at h key
    cases r with
    | ok u => exact key u rfl
    | err e => cases h
    | panic e => cases h
    | diverge => cases h
  | err e => cases h
  | panic e => cases h
  | diverge => cases h

/-- The drawing apart from the memory behind mask lists. -/
def SameDrawing (s s' : Svg F) : Prop := s' = { s with arrays := s'.arrays }

/-- C32, the other modes, partial: reading the start tag of an unknown element outside `defs` of a tidy document is no error and
changes nothing in the drawing (paths, masks, gradients, definitions, texts, view box). -/
theorem C32_lenient_partial {fuel : Nat} {m : ErrorMode} (hm : m ≠ .strict) {pre : List Token} {name : Str} {attrs : List Attr} {s s' : Svg F}
    {fin fin' : StreamEnd} {e e' : Option Err} {l l' : List Msg} (ht : Tidy pre) {ch : List Elem} (hch : openFrom [] pre = some ch)
    (hd : inside "defs" ch = false) (hn : Unknown name) (h : parse fuel m pre fin = .done (some s) e l)
    (h' : parse fuel m (pre ++ [.start name attrs]) fin' = .done (some s') e' l') : SameDrawing s s' := by
  obtain ⟨h1, h2⟩ := parse_svg h
  obtain ⟨h3, h4⟩ := parse_svg h'
  rw [readTokens_append, SM.bind_run] at h3
  rcases hr : readTokens fuel pre (initCursor (F := F) m) with ⟨r, c⟩
  rw [hr] at h1 h2 h3
  cases r with
  | ok u =>
    have hc := (tidy_nil_split ht hch fuel m hr).flags.inDefs
    rw [hd] at hc
    dsimp only at h1 h3
    have key : SameDrawing c.svg (readToken fuel (.start name attrs) c).2.svg := by
      have hF := pushStyle_flag attrs c
      rw [readToken, SM.bind_run]
      rcases pushStyle_frame attrs c with ⟨top, rest, st, c1, -, -, hR, hp⟩ | ⟨hno, hR⟩
      · rw [hp] at hF ⊢
        dsimp only at hF ⊢
        rw [readStart_unknown hn fuel attrs (.inl (hF.inDefs.trans hc))]
        have h1 := (handleError_styleR (.cannotProcess name) ({ c1 with styleStack := st :: c.styleStack } : Cursor F)).eq
        have h2 := hR.eq
        unfold SameDrawing
        rw [h1]
        dsimp only
        rw [h2]
      · rcases hp : pushStyle attrs c with ⟨r, d⟩
        rw [hp] at hR hno
        have h2 := hR.eq
        dsimp only at h2
        cases r with
        | ok u => exact absurd rfl (hno u)
        | err e => dsimp only; unfold SameDrawing; rw [h2]
        | panic e => dsimp only; unfold SameDrawing; rw [h2]
        | diverge => dsimp only; unfold SameDrawing; rw [h2]
    rw [readTokens_cons, SM.bind_run] at h3
    rcases hk : readToken fuel (.start name attrs) c with ⟨r, d⟩
    rw [hk] at h3 key
    rw [← h1, ← h3]
    cases r <;> exact key
  | err e => rw [← h1, ← h3]; exact rfl
  | panic s => exact absurd h2 id
  | diverge => exact absurd h2 id

/-- C32, the other modes, partial: an unknown element outside `defs` of a tidy document might as well be a `g`: the drawing and the
error are the same. So its children are processed with its style. -/
theorem C32_like_group_partial {fuel : Nat} {m : ErrorMode} (hm : m ≠ .strict) {pre body post : List Token} {name : Str}
    {attrs : List Attr} {fin : StreamEnd} (ht : Tidy (pre ++ .start name attrs :: body ++ .stop name :: post)) {ch : List Elem}
    (hch : openFrom [] pre = some ch) (hd : inside "defs" ch = false) (hb : openFrom [] body = some []) (hn : Unknown name) :
    Outcome.quiet (parse (F := F) fuel m (pre ++ .start name attrs :: body ++ .stop name :: post) fin) =
    Outcome.quiet (parse fuel m (pre ++ .start "g".toList attrs :: body ++ .stop "g".toList :: post) fin) := by
  rw [C30_lenient_modes_agree fuel hm (m' := .ignore) (by decide), C30_lenient_modes_agree fuel hm (m' := .ignore) (by decide)]
  congr 1
  have key : readTokens fuel (pre ++ .start name attrs :: body ++ .stop name :: post) (initCursor (F := F) .ignore) =
      readTokens fuel (pre ++ .start "g".toList attrs :: body ++ .stop "g".toList :: post) (initCursor (F := F) .ignore) := by
    rw [List.append_assoc, List.append_assoc, readTokens_append, readTokens_append, SM.bind_run, SM.bind_run]
    rcases hr : readTokens fuel pre (initCursor (F := F) .ignore) with ⟨r, c⟩
    cases r with
    | err e => rfl
    | panic e => rfl
    | diverge => rfl
    | ok u =>
      dsimp only
      -- the start tags
      obtain ⟨ch1, hch1, hrest⟩ := tidy_split (F := F) (pre := pre) (els := .start name attrs :: body ++ .stop name :: post) (by
        rwa [← List.append_assoc])
      rw [hch] at hch1
      cases hch1
      have hj := hrest (· = .color) fuel .ignore c (tokensOK_color _) hr
      have hp : c.pc.path = [] := by
        have := readTokens_clean fuel pre (initCursor (F := F) .ignore) rfl (by rw [hr]; trivial)
        rwa [hr] at this
      have hmode := (readTokens_grow (F := F) fuel pre (initCursor .ignore)).mode
      rw [hr] at hmode
      have hdc : c.inDefs = false := hj.tidy.flags.inDefs.trans hd
      have hstart : readToken fuel (.start name attrs) c = readToken fuel (.start "g".toList attrs) c := by
        have h1 := pushStyle_elem attrs c
        have h2 := pushStyle_flag attrs c
        have h3 := pushStyle_path attrs c
        rw [readToken, readToken, SM.bind_run, SM.bind_run]
        rcases hps : pushStyle attrs c with ⟨r, d⟩
        rw [hps] at h1 h2 h3
        cases r with
        | err e => rfl
        | panic e => rfl
        | diverge => rfl
        | ok u =>
          dsimp only
          rw [readStart_unknown hn fuel attrs (.inl (h2.inDefs.trans hdc))]
          have hmd : d.pc.errorMode = .ignore := h1.mode.trans hmode
          have hpd : d.pc.path = [] := (h3 : _ = _).trans hp
          unfold handleError
          rw [if_neg (by rw [hmd]; decide), if_neg (by rw [hmd]; decide)]
          unfold readStartElement
          dsimp only
          rw [if_neg (by rintro ⟨h, -⟩; rw [h2.inDefs.trans hdc] at h; cases h)]
          have : drawFuncs fuel (useF fuel) "g".toList = some fun _ => (pure () : CM F Unit) := rfl
          rw [this]
          dsimp only
          rw [SM.pure_run]
          have he : emitPath d = (.ok (), d) := by unfold emitPath; rw [hpd]
          dsimp only
          rw [he]
      rw [List.cons_append, List.cons_append, readTokens_cons, readTokens_cons, SM.bind_run, SM.bind_run, hstart]
      rcases hs : readToken fuel (.start "g".toList attrs) c with ⟨r, d⟩
      cases r with
      | err e => rfl
      | panic e => rfl
      | diverge => rfl
      | ok u =>
        dsimp only
        rw [readTokens_append, readTokens_append, SM.bind_run, SM.bind_run]
        rcases hbd : readTokens fuel body d with ⟨r, c2⟩
        cases r with
        | err e => rfl
        | panic e => rfl
        | diverge => rfl
        | ok u =>
          dsimp only
          -- the end tags
          have hpre2 : readTokens fuel (pre ++ .start name attrs :: body) (initCursor (F := F) .ignore) = (.ok (), c2) := by
            rw [readTokens_append, SM.bind_run, hr]
            dsimp only
            rw [readTokens_cons, SM.bind_run, hstart, hs]
            exact hbd
          obtain ⟨ch2, hch2, hrest2⟩ := tidy_split (F := F) (pre := pre ++ .start name attrs :: body) (els := .stop name :: post) ht
          have hj2 := hrest2 (· = .color) fuel .ignore c2 (tokensOK_color _) hpre2
          have hopen : openFrom [] (pre ++ .start name attrs :: body) = some (⟨name, attrs⟩ :: ch) := by
            rw [openFrom_append, hch]
            exact openFrom_lift (⟨name, attrs⟩ :: ch) body [] [] hb
          rw [hopen] at hch2
          cases hch2
          have hdd : c2.inDefs = false := by
            have hne : name ≠ "defs".toList := hn "defs" (by decide)
            rw [hj2.tidy.flags.inDefs, inside_tag_ne "defs" hne]
            exact hd
          have hstop : readToken fuel (.stop name) c2 = readToken fuel (.stop "g".toList) c2 := by
            rw [readToken, readToken]
            unfold readEndElement
            rw [SM.bind_run, SM.bind_run]
            unfold popStyle
            cases c2.styleStack with
            | nil => rfl
            | cons st rest =>
              dsimp only
              rw [SM.modify_run, SM.modify_run, if_neg (hn "g" (by decide)), if_neg (hn "mask" (by decide)), if_neg (hn "title" (by decide)),
                if_neg (hn "desc" (by decide)), if_neg (hn "defs" (by decide)),
                if_neg (by rintro (h | h); exact hn "radialGradient" (by decide) h; exact hn "linearGradient" (by decide) h),
                if_pos rfl]
              dsimp only
              rw [if_neg (by rw [hdd]; decide)]
          rw [readTokens_cons, readTokens_cons, SM.bind_run, SM.bind_run, hstop]
  unfold parse
  rw [key]
  have : ∀ n n', (pre ++ .start n attrs :: body ++ .stop n' :: post).any Token.isStart = true := by
    intro n n'
    simp [List.any_append, Token.isStart]
  rw [this, this]

end GoSvg

namespace GoSvg

open Spec

section Examples

attribute [local instance] asciiEnv
attribute [local instance] dummyLibm

/-- C41 applies: the beginning of `exTidy` up to and with its `<defs>`, then the definitions, whose rectangle is not drawn. -/
theorem exTidy_silent : ∃ s s' : Svg F64, parse 5 .strict (exTidy.take 2) .eof = .done (some s) none [] ∧
    parse 5 .strict (exTidy.take 2 ++ (exTidy.drop 2).take 8) .eof = .done (some s') none [] ∧
    s'.svgPaths = s.svgPaths ∧ s.svgPaths = [] ∧ s'.grads.length = 1 := by
  have h : (match parse (F := F64) 5 .strict (exTidy.take 2) .eof with | .done (some s) none [] => decide (s.svgPaths = []) | _ => false) = true := by
    decide +kernel
  have h' : (match parse (F := F64) 5 .strict (exTidy.take 2 ++ (exTidy.drop 2).take 8) .eof with
    | .done (some s) none [] => decide (s.grads.length = 1) | _ => false) = true := by decide +kernel
  split at h
  · rename_i s hs
    split at h'
    · rename_i s' hs'
      have ht : Tidy (exTidy.take 2 ++ (exTidy.drop 2).take 8) := ⟨by decide +kernel, by decide +kernel, .inr (by decide +kernel)⟩
      obtain ⟨ch, hch⟩ := Option.isSome_iff_exists.1 (show (openFrom [] (exTidy.take 2)).isSome = true by decide +kernel)
      have hd : inside "defs" ch = true := by
        have : (openFrom [] (exTidy.take 2)).map (inside "defs") = some true := by decide +kernel
        rw [hch] at this
        exact Option.some.inj this
      exact ⟨s, s', hs, hs', (C41_silent_partial ht hch hd (by decide +kernel) hs hs').1, of_decide_eq_true h, of_decide_eq_true h'⟩
    · cases h'
  · cases h

/-- C41 does not hold for all documents: the end of an inner `defs` ends the outer one, and what follows is drawn. -/
theorem C41_nested_defs_false :
    (pathsOf .strict (elem "svg" [] (elem "defs" [] (elem "defs" [] [] ++ elem "rect" [("width", "2"), ("height", "2")] [])))).map List.length = some 1 := by
  decide +kernel

/-- C41 does not hold for all documents: what stands in a gradient inside `defs` is drawn. -/
theorem C41_gradient_content_false :
    (pathsOf .strict (elem "svg" [] (elem "defs" [] (elem "linearGradient" [] (elem "rect" [("width", "2"), ("height", "2")] []))))).map List.length = some 1 := by
  decide +kernel

/-- A title and a description in pieces, one of each in `defs`. -/
def exTexts : List Token :=
  elem "svg" [] (elem "title" [] [.chars "a".toList, .other, .chars "b".toList] ++ elem "defs" [] (elem "title" [] [.chars "x".toList]) ++
    [.chars " ".toList] ++ elem "g" [] (elem "desc" [] [.chars "d".toList]) ++ elem "title" [] [])

theorem exTexts_runs : ∃ s : Svg F64, parse 5 .strict exTexts .eof = .done (some s) none [] ∧
    s.titles = ["ab".toList, []] ∧ s.descriptions = ["d".toList] := by
  have h : (match parse (F := F64) 5 .strict exTexts .eof with | .done (some _) none [] => true | _ => false) = true := by decide +kernel
  split at h
  · rename_i s hs
    have := C46_texts_partial (F := F64) ⟨by decide +kernel, by decide +kernel, .inl (by decide +kernel)⟩ hs
    refine ⟨s, hs, ?_, ?_⟩
    · rw [this.1]; decide +kernel
    · rw [this.2]; decide +kernel
  · cases h

/-- C46 does not hold for all documents: the end of an inner title ends the outer one, whose rest is lost. -/
theorem C46_nested_title_false : (match parse (F := F64) 5 .strict
    (elem "svg" [] (elem "title" [] ([.chars "a".toList] ++ elem "title" [] [.chars "b".toList] ++ [.chars "c".toList]))) .eof with
    | .done (some s) none [] => decide (s.titles = ["a".toList, "b".toList]) | _ => false) = true := by
  decide +kernel

theorem unknown_blink : Unknown "blink".toList := by unfold Unknown; decide +kernel

/-- C32 applies: in `sloppy`, `blink` is like a group. -/
theorem sloppy_blink : ∃ s : Svg F64, Outcome.quiet (parse (F := F64) 8 .warn sloppy .eof) = .done (some s) none [] ∧ s.svgPaths.length = 2 ∧
    Outcome.quiet (parse (F := F64) 8 .warn (elem "svg" [] (elem "path" [("d", "M0 0L1 1"), ("fill-rule", "odd")] ++ elem "g" [] ++
      elem "path" [("d", "M0 0L1 1")])) .eof) = .done (some s) none [] := by
  have h : (match Outcome.quiet (parse (F := F64) 8 .warn sloppy .eof) with | .done (some s) none [] => decide (s.svgPaths.length = 2) | _ => false) = true := by
    decide +kernel
  split at h
  · rename_i s hs
    refine ⟨s, hs, of_decide_eq_true h, ?_⟩
    have := C32_like_group_partial (F := F64) (fuel := 8) (m := .warn) (by decide) (pre := sloppy.take 3) (body := []) (post := sloppy.drop 5)
      (name := "blink".toList) (attrs := []) (fin := .eof) ⟨by decide +kernel, by decide +kernel, .inl (by decide +kernel)⟩
      (ch := [⟨"svg".toList, []⟩]) (by decide +kernel) (by decide +kernel) rfl unknown_blink
    exact this.symm.trans hs
  · cases h

/-- C32 and C41 do not hold for all documents: after a use of a definition that holds a `defs`, everything is taken for
definitions: an unknown element is no error in strict mode, and a rectangle is not drawn. -/
theorem C32_after_use_false :
    pathsOf .strict (elem "svg" [] (elem "defs" [] (elem "g" [("id", "a")] (elem "defs" [] [])) ++ elem "use" [("href", "#a")] [] ++
      elem "blink" [] [] ++ elem "rect" [("width", "2"), ("height", "2")] [])) = some [] := by
  decide +kernel

end Examples

end GoSvg
