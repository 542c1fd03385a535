import Verif.Lemmas.Chain

/-! What one token does to the style stack and to the flags. -/

set_option linter.unusedSectionVars false

namespace GoSvg

open Spec

variable {F : Type} [GoFloat F] [GoEnv]

open SM (get modify throw lift panic diverge forEach)

/-- The token is not a `use`, or every definition is complete. -/
def UseFine (t : Token) (c : Cursor F) : Prop := (∀ attrs, t ≠ .start "use".toList attrs) ∨ DefsOK c

/-- The invariant that holds in every document. -/
abbrev Inv (c : Cursor F) : Prop := TokInv (· = .color) c

theorem tokOK_color (t : Token) : TokOK (· = .color) t := by
  cases t <;> first | exact attrOK_color _ | trivial

/-- Every element function, if not `use` of incomplete definitions: the flags stay except for the special elements, the style
stack is restored. -/
theorem draw_stack {fuel : Nat} {name : Str} {attrs : List Attr} {df : List Attr → CM F Unit} {c : Cursor F}
    (hd : drawFuncs fuel (useF fuel) name = some df) (hs : c.styleStack ≠ []) (hc : Inv c) (hu : name ≠ "use".toList ∨ DefsOK c)
    (hr : ∀ s, (df attrs c).1 ≠ .panic s) (hr' : (df attrs c).1 ≠ .diverge) (he : ∀ e, (df attrs c).1 ≠ .err e) :
    (df attrs c).2.styleStack = c.styleStack := by
  by_cases hn : name = "use".toList
  · subst hn
    rw [drawFuncs_use] at hd
    cases hd
    rcases hu with hu | hu
    · exact absurd rfl hu
    · have hU := useF_done (B := (· = .color)) fuel attrs c ⟨hs, hu, hc.attrs, hc.grad⟩
      refine hU.stack ?_
      cases h : (useF fuel attrs c).1 with
      | ok u => rfl
      | err e => exact absurd h (he e)
      | panic s => exact absurd h (hr s)
      | diverge => exact absurd h hr'
  · exact (drawFuncs_plain hd hn attrs c).styleStack

/-- A start tag that succeeds: the style of its declarations is put on the stack, and a path it draws has that style. -/
theorem start_stack {fuel : Nat} {name : Str} {attrs : List Attr} {c c' : Cursor F} {u : Unit} (hc : Inv c)
    (hu : UseFine (.start name attrs) c) (h : readToken fuel (.start name attrs) c = (.ok u, c')) :
    ∃ top rest st c1, c.styleStack = top :: rest ∧ declLoop top (decls attrs) c = (.ok st, c1) ∧ c'.styleStack = st :: top :: rest ∧
      (∃ new, c'.svg.svgPaths = c.svg.svgPaths ++ new ∧ ∀ p ∈ new, p.style = st) := by
  rw [readToken, SM.bind_run] at h
  rcases pushStyle_frame attrs c with ⟨top, rest, st, c1, hs, hl, hR, hp⟩ | ⟨hn, -⟩
  · rw [hp] at h
    dsimp only at h
    refine ⟨top, rest, st, c1, hs, hl, ?_⟩
    have hi := tokInv_rel (pushStyle_elem attrs c) (pushStyle_keepsGrad attrs c) hc
    have hE := pushStyle_elem attrs c
    rw [hp] at hi hE
    dsimp only at hi hE
    generalize hdd : ({ c1 with styleStack := st :: c.styleStack } : Cursor F) = d at h hi hE
    have hds : d.styleStack = st :: top :: rest := by rw [← hdd, ← hs]
    have hdefs : DefsOK c → DefsOK d := fun h id ds => by rw [hE.defs]; exact h id ds
    rcases readStartElement_cases fuel name attrs d with ⟨-, -, -, -, h'⟩ | ⟨-, ⟨-, h'⟩ | ⟨df, hdr, ⟨hn, h'⟩ | ⟨-, c2, hEm, h'⟩ | ⟨-, -, h'⟩⟩⟩
    · rw [h'] at h; cases h
      refine ⟨by rw [recordDef_eq]; exact hds, [], ?_, fun p hp => nomatch hp⟩
      rw [recordDef_eq]; simp [hE.svgPaths]
    · rw [h'] at h
      have hS := handleError_styleR (.cannotProcess name) d
      rw [h] at hS
      have e := hS.eq
      dsimp only at e
      refine ⟨by rw [e]; exact hds, [], by rw [e]; simp [hE.svgPaths], fun p hp => nomatch hp⟩
    · rw [h'] at h; rw [h] at hn; exact absurd trivial hn
    · rw [h'] at h
      obtain ⟨hres, rfl⟩ : (df attrs d).1 = .ok u ∧ c2 = c' := by simpa using h
      have hst : (df attrs d).2.styleStack = d.styleStack :=
        draw_stack hdr (by rw [hds]; simp) hi (by
          rcases hu with hu | hu
          · exact .inl fun h => hu attrs (by rw [h])
          · exact .inr (hdefs hu)) (by rw [hres]; intro s h; cases h) (by rw [hres]; intro h; cases h) (by rw [hres]; intro s h; cases h)
      have hel := drawFuncs_elem hdr attrs d
      have hpaths : (df attrs d).2.svg.svgPaths = c.svg.svgPaths := hel.svgPaths.trans hE.svgPaths
      cases hEm with
      | nothing => exact ⟨hst.trans hds, [], by rw [hpaths]; simp, fun p hp => nomatch hp⟩
      | lost => exact ⟨hst.trans hds, [], by dsimp only; rw [hpaths]; simp, fun p hp => nomatch hp⟩
      | mask => exact ⟨hst.trans hds, [], by dsimp only; rw [hpaths]; simp, fun p hp => nomatch hp⟩
      | doc _ _ st' rest' hs' =>
        refine ⟨hst.trans hds, _, by dsimp only; rw [hpaths], fun p hp => ?_⟩
        simp only [List.mem_singleton] at hp
        rw [hp]
        rw [hst, hds] at hs'
        cases hs'; rfl
    · rw [h'] at h; cases h
  · rcases hp : pushStyle attrs c with ⟨r, d⟩
    rw [hp] at h hn
    cases r with
    | ok u => exact absurd rfl (hn u)
    | err _ => cases h
    | panic _ => cases h
    | diverge => cases h

theorem stop_stack {fuel : Nat} {name : Str} {c c' : Cursor F} {u : Unit} (h : readToken fuel (.stop name) c = (.ok u, c')) :
    c.styleStack ≠ [] ∧ EndR c c' := by
  rw [readToken] at h
  rcases readEnd_cases name c with ⟨-, h'⟩ | ⟨c2, hs, h', hE⟩
  · rw [h'] at h; cases h
  · rw [h'] at h; cases h; exact ⟨hs, hE⟩

/-! ### The flags -/

theorem inside_cons (n : String) (e : Elem) (ch : List Elem) : inside n (e :: ch) = (decide (e.name = n.toList) || inside n ch) := by
  unfold inside; rw [List.any_cons]

theorem inside_cons_self {n : String} {e : Elem} (h : e.name = n.toList) (ch : List Elem) : inside n (e :: ch) = true := by
  rw [inside_cons, decide_eq_true h]; rfl

theorem inside_cons_ne {n : String} {e : Elem} (h : e.name ≠ n.toList) (ch : List Elem) : inside n (e :: ch) = inside n ch := by
  rw [inside_cons, decide_eq_false h]; rfl

theorem inside_tag_ne (n : String) {name : Str} (h : name ≠ n.toList) (attrs : List Attr) (ch : List Elem) :
    inside n (⟨name, attrs⟩ :: ch) = inside n ch := inside_cons_ne h ch

/-- The flags tell which elements are open. -/
structure FlagsAt (ch : List Elem) (c : Cursor F) : Prop where
  inDefs : c.inDefs = inside "defs" ch
  inGrad : c.inGrad = insideGrad ch
  inMask : c.inMask = (inside "mask" ch && !inside "defs" ch)
  mask : c.mask.isSome = c.inMask
  inTitle : c.inTitleText = (inside "title" ch && !inside "defs" ch)
  inDesc : c.inDescText = (inside "desc" ch && !inside "defs" ch)

/-- Every open element is allowed where it stands. -/
def Allowed (P : List Elem → Str → List Attr → Prop) : List Elem → Prop
  | [] => True
  | e :: ch => P ch e.name e.attrs ∧ Allowed P ch

theorem flagR_at {ch : List Elem} {c c' : Cursor F} (h : FlagR c c') (hc : FlagsAt ch c) : FlagsAt ch c' :=
  ⟨h.inDefs.trans hc.inDefs, h.inGrad.trans hc.inGrad, h.inMask.trans hc.inMask, by rw [h.mask, h.inMask]; exact hc.mask,
    h.inTitle.trans hc.inTitle, h.inDesc.trans hc.inDesc⟩

/-- The names with a flag. -/
def flagTags : List Str :=
  ["defs".toList, "linearGradient".toList, "radialGradient".toList, "mask".toList, "title".toList, "desc".toList]

theorem at_plain {ch : List Elem} {c : Cursor F} {e : Elem} (hn : e.name ∉ flagTags) (hc : FlagsAt ch c) : FlagsAt (e :: ch) c := by
  simp only [flagTags, List.mem_cons, List.not_mem_nil, or_false, not_or] at hn
  obtain ⟨h1, h2, h3, h4, h5, h6⟩ := hn
  refine ⟨?_, ?_, ?_, hc.mask, ?_, ?_⟩
  · rw [inside_cons_ne h1]; exact hc.inDefs
  · unfold insideGrad; rw [inside_cons_ne h2, inside_cons_ne h3]; exact hc.inGrad
  · rw [inside_cons_ne h4, inside_cons_ne h1]; exact hc.inMask
  · rw [inside_cons_ne h5, inside_cons_ne h1]; exact hc.inTitle
  · rw [inside_cons_ne h6, inside_cons_ne h1]; exact hc.inDesc

theorem at_plain_inv {ch : List Elem} {c : Cursor F} {e : Elem} (hn : e.name ∉ flagTags) (hc : FlagsAt (e :: ch) c) : FlagsAt ch c := by
  simp only [flagTags, List.mem_cons, List.not_mem_nil, or_false, not_or] at hn
  obtain ⟨h1, h2, h3, h4, h5, h6⟩ := hn
  refine ⟨?_, ?_, ?_, hc.mask, ?_, ?_⟩
  · rw [← inside_cons_ne h1]; exact hc.inDefs
  · have := hc.inGrad; unfold insideGrad at this ⊢; rwa [inside_cons_ne h2, inside_cons_ne h3] at this
  · have := hc.inMask; rwa [inside_cons_ne h4, inside_cons_ne h1] at this
  · have := hc.inTitle; rwa [inside_cons_ne h5, inside_cons_ne h1] at this
  · have := hc.inDesc; rwa [inside_cons_ne h6, inside_cons_ne h1] at this

/-- Inside `defs` everything but gradients is without effect on the flags. -/
theorem at_recorded {ch : List Elem} {c : Cursor F} {e : Elem} (hd : inside "defs" ch = true) (hg : ¬ IsGrad e.name)
    (hc : FlagsAt ch c) : FlagsAt (e :: ch) c := by
  have hd' : inside "defs" (e :: ch) = true := by rw [inside_cons, hd]; simp
  refine ⟨by rw [hd', hc.inDefs, hd], ?_, ?_, hc.mask, ?_, ?_⟩
  · unfold insideGrad
    rw [inside_cons_ne (fun h => hg (.inl h)), inside_cons_ne (fun h => hg (.inr h))]; exact hc.inGrad
  · rw [hd', hc.inMask, hd]; simp
  · rw [hd', hc.inTitle, hd]; simp
  · rw [hd', hc.inDesc, hd]; simp

theorem emit_flag {ch : List Elem} {c c' : Cursor F} (h : Emit c c') (hc : FlagsAt ch c) : FlagsAt ch c' := by
  cases h with
  | nothing => exact hc
  | lost => exact ⟨hc.inDefs, hc.inGrad, hc.inMask, hc.mask, hc.inTitle, hc.inDesc⟩
  | mask _ hm m hn => exact ⟨hc.inDefs, hc.inGrad, hc.inMask, by dsimp only; rw [hm]; rfl, hc.inTitle, hc.inDesc⟩
  | doc => exact ⟨hc.inDefs, hc.inGrad, hc.inMask, hc.mask, hc.inTitle, hc.inDesc⟩

theorem grad_flag {fuel : Nat} {use : List Attr → CM F Unit} {tag : Str} {df : List Attr → CM F Unit}
    (h : drawFuncs fuel use tag = some df) (ht : IsGrad tag) (attrs : List Attr) (c : Cursor F) :
    GradFlagR c (df attrs c).2 ∧ (df attrs c).2.inGrad = true := by
  have hb := (grad_start h ht attrs c).eq
  exact ⟨by rw [hb]; exact ⟨rfl, rfl, rfl, rfl, rfl, rfl, rfl⟩, by rw [hb]; rfl⟩

theorem maskF_ok {attrs : List Attr} {c : Cursor F} {u : Unit} (h : (maskF attrs c).1 = .ok u) :
    ∃ m : SvgMask F, m.svgPaths = [] ∧ (maskF attrs c).2 = { c with inMask := true, mask := some m } := by
  unfold maskF at h ⊢
  rw [SM.bind_run, SM.get_run] at h ⊢
  dsimp only at h ⊢
  rw [SM.bind_run, SM.lift_run] at h ⊢
  cases hr : Res.loop (maskAttr c.svg.viewBox) ⟨[], num 0, num 0, num 0, num 0⟩ attrs with
  | ok v => exact ⟨_, rfl, rfl⟩
  | err e => rw [hr] at h; cases h
  | panic s => rw [hr] at h; cases h
  | diverge => rw [hr] at h; cases h

theorem drawFuncs_none_flag {fuel : Nat} {use : List Attr → CM F Unit} {name : Str} (h : drawFuncs fuel use name = none) :
    name ∉ flagTags := by
  intro hm
  simp only [flagTags, List.mem_cons, List.not_mem_nil, or_false] at hm
  rcases hm with rfl | rfl | rfl | rfl | rfl | rfl <;> cases h

theorem quiet_not_flag {name : Str} (h : name ∈ quietTags ∨ name = "use".toList) : name ∉ flagTags := by
  rcases h with h | rfl
  · simp only [quietTags, shapeTags, List.cons_append, List.nil_append, List.mem_cons, List.not_mem_nil, or_false] at h
    rcases h with rfl | rfl | rfl | rfl | rfl | rfl | rfl | rfl | rfl | rfl <;> decide
  · decide

/-- The flags after a start tag in its place. -/
theorem start_flags {fuel : Nat} {name : Str} {attrs : List Attr} {c c' : Cursor F} {u : Unit} {ch : List Elem} (hc : Inv c)
    (hu : UseFine (.start name attrs) c) (hf : FlagsAt ch c) (ht : TidyTag ch name attrs)
    (h : readToken fuel (.start name attrs) c = (.ok u, c')) : FlagsAt (⟨name, attrs⟩ :: ch) c' := by
  rw [readToken, SM.bind_run] at h
  rcases pushStyle_frame attrs c with ⟨top, rest, st, c1, hs, hl, hR, hp⟩ | ⟨hn, -⟩
  · have hi := tokInv_rel (pushStyle_elem attrs c) (pushStyle_keepsGrad attrs c) hc
    have hE := pushStyle_elem attrs c
    have hF := flagR_at (pushStyle_flag attrs c) hf
    rw [hp] at hi hE hF h
    dsimp only at hi hE hF h
    generalize hdd : ({ c1 with styleStack := st :: c.styleStack } : Cursor F) = d at h hi hE hF
    have hds : d.styleStack = st :: top :: rest := by rw [← hdd, ← hs]
    have hdefs : DefsOK c → DefsOK d := fun h id ds => by rw [hE.defs]; exact h id ds
    obtain ⟨t1, t2, t3, t4, t5⟩ := ht
    rcases readStartElement_cases fuel name attrs d with ⟨h1, h2, h3, h4, h'⟩ |
      ⟨hwhy, ⟨hno, h'⟩ | ⟨df, hdr, ⟨hn, h'⟩ | ⟨-, c2, hEm, h'⟩ | ⟨-, -, h'⟩⟩⟩
    · rw [h'] at h; cases h
      have := at_recorded (e := ⟨name, attrs⟩) (hF.inDefs ▸ h1) (by rintro (h | h); exact h3 h; exact h2 h) hF
      rw [recordDef_eq]
      exact ⟨this.1, this.2, this.3, this.4, this.5, this.6⟩
    · rw [h'] at h
      have := flagR_at (handleError_flag (.cannotProcess name) d) hF
      rw [h] at this
      exact at_plain (drawFuncs_none_flag hno) this
    · rw [h'] at h; rw [h] at hn; exact absurd trivial hn
    · rw [h'] at h
      obtain ⟨hres, rfl⟩ : (df attrs d).1 = .ok u ∧ c2 = c' := by simpa using h
      refine emit_flag hEm ?_
      by_cases hq : name ∈ quietTags
      · exact at_plain (quiet_not_flag (.inl hq)) (flagR_at (quiet_flag hdr hq attrs d) hF)
      by_cases hus : name = "use".toList
      · refine at_plain (quiet_not_flag (.inr hus)) (flagR_at ?_ hF)
        subst hus
        rw [drawFuncs_use] at hdr
        cases hdr
        rcases hu with hu | hu
        · exact absurd rfl (hu attrs)
        · exact (useF_done (B := (· = .color)) fuel attrs d ⟨by rw [hds]; simp, hdefs hu, hi.attrs, hi.grad⟩).rel.toFlagR
      by_cases hg : IsGrad name
      · obtain ⟨g1, g2⟩ := grad_flag hdr hg attrs d
        have hne : ∀ m : String, m.toList ≠ "linearGradient".toList → m.toList ≠ "radialGradient".toList → name ≠ m.toList := by
          rintro m m1 m2 rfl
          exact hg.elim m1 m2
        refine ⟨?_, ?_, ?_, ?_, ?_, ?_⟩
        · rw [g1.inDefs, inside_tag_ne "defs" (hne "defs" (by decide) (by decide))]; exact hF.inDefs
        · rw [g2]
          unfold insideGrad
          rcases hg with hg | hg
          · rw [inside_cons_self (n := "linearGradient") (e := ⟨name, attrs⟩) hg]; rfl
          · rw [inside_cons_self (n := "radialGradient") (e := ⟨name, attrs⟩) hg]; simp
        · rw [g1.inMask, inside_tag_ne "defs" (hne "defs" (by decide) (by decide)), inside_tag_ne "mask" (hne "mask" (by decide) (by decide))]
          exact hF.inMask
        · rw [g1.mask, g1.inMask]; exact hF.mask
        · rw [g1.inTitle, inside_tag_ne "defs" (hne "defs" (by decide) (by decide)), inside_tag_ne "title" (hne "title" (by decide) (by decide))]
          exact hF.inTitle
        · rw [g1.inDesc, inside_tag_ne "defs" (hne "defs" (by decide) (by decide)), inside_tag_ne "desc" (hne "desc" (by decide) (by decide))]
          exact hF.inDesc
      -- outside `defs` and gradients
      have hng : insideGrad ch = false := by
        cases hx : insideGrad ch with
        | false => rfl
        | true => exact absurd (by rw [t2 hx]; decide) hq
      have hnd : inside "defs" ch = false := by
        rw [← hF.inDefs]
        rcases hwhy with hw | hw | hw | hw
        · exact hw
        · exact absurd (.inr hw) hg
        · exact absurd (.inl hw) hg
        · rw [hF.inGrad, hng] at hw; cases hw
      have hG : ∀ (e : Elem), e.name = name → insideGrad (e :: ch) = insideGrad ch := by
        rintro e rfl
        unfold insideGrad
        rw [inside_cons_ne (fun h => hg (.inl h)), inside_cons_ne (fun h => hg (.inr h))]
      rcases drawFuncs_cases hdr with ⟨h, -⟩ | ⟨rfl, -⟩ | ⟨rfl, -⟩ | ⟨rfl, -⟩ | ⟨rfl, rfl⟩ | ⟨rfl, rfl⟩ | ⟨rfl, rfl⟩ | ⟨h, -⟩ | ⟨h, -⟩ |
        ⟨rfl, rfl⟩ | ⟨h, -⟩
      · exact absurd (List.mem_append_right _ h) hq
      · exact absurd (by decide) hq
      · exact absurd (by decide) hq
      · exact absurd (by decide) hq
      · -- desc
        have e1 := inside_tag_ne "defs" (name := "desc".toList) (by decide) attrs ch
        refine ⟨e1 ▸ hF.inDefs, (hG ⟨"desc".toList, attrs⟩ rfl).symm ▸ hF.inGrad, ?_, hF.mask, ?_, ?_⟩
        · rw [e1, inside_tag_ne "mask" (name := "desc".toList) (by decide) attrs ch]; exact hF.inMask
        · rw [e1, inside_tag_ne "title" (name := "desc".toList) (by decide) attrs ch]; exact hF.inTitle
        · rw [e1, inside_cons_self (n := "desc") (e := ⟨"desc".toList, attrs⟩) rfl ch, hnd]; rfl
      · -- title
        have e1 := inside_tag_ne "defs" (name := "title".toList) (by decide) attrs ch
        refine ⟨e1 ▸ hF.inDefs, (hG ⟨"title".toList, attrs⟩ rfl).symm ▸ hF.inGrad, ?_, hF.mask, ?_, ?_⟩
        · rw [e1, inside_tag_ne "mask" (name := "title".toList) (by decide) attrs ch]; exact hF.inMask
        · rw [e1, inside_cons_self (n := "title") (e := ⟨"title".toList, attrs⟩) rfl ch, hnd]; rfl
        · rw [e1, inside_tag_ne "desc" (name := "title".toList) (by decide) attrs ch]; exact hF.inDesc
      · -- defs
        have e1 := inside_cons_self (n := "defs") (e := ⟨"defs".toList, attrs⟩) rfl ch
        obtain ⟨-, u2, u3, u4⟩ := t1 rfl
        refine ⟨e1.symm, (hG ⟨"defs".toList, attrs⟩ rfl).symm ▸ hF.inGrad, ?_, hF.mask, ?_, ?_⟩
        · rw [e1]; show d.inMask = _; rw [hF.inMask, u2]; simp
        · rw [e1]; show d.inTitleText = _; rw [hF.inTitle, u3]; simp
        · rw [e1]; show d.inDescText = _; rw [hF.inDesc, u4]; simp
      · exact absurd (.inl h) hg
      · exact absurd (.inr h) hg
      · -- mask
        obtain ⟨m, -, hm⟩ := maskF_ok hres
        have e1 := inside_tag_ne "defs" (name := "mask".toList) (by decide) attrs ch
        rw [hm]
        refine ⟨e1 ▸ hF.inDefs, (hG ⟨"mask".toList, attrs⟩ rfl).symm ▸ hF.inGrad, ?_, rfl, ?_, ?_⟩
        · rw [e1, inside_cons_self (n := "mask") (e := ⟨"mask".toList, attrs⟩) rfl ch, hnd]; rfl
        · rw [e1, inside_tag_ne "title" (name := "mask".toList) (by decide) attrs ch]; exact hF.inTitle
        · rw [e1, inside_tag_ne "desc" (name := "mask".toList) (by decide) attrs ch]; exact hF.inDesc
      · exact absurd h hus
    · rw [h'] at h; cases h
  · rcases hp : pushStyle attrs c with ⟨r, d⟩
    rw [hp] at h hn
    cases r with
    | ok u => exact absurd rfl (hn u)
    | err _ => cases h
    | panic _ => cases h
    | diverge => cases h

/-- The flags after the end tag of the innermost element. -/
theorem stop_flags {fuel : Nat} {e : Elem} {c c' : Cursor F} {u : Unit} {ch : List Elem} (hf : FlagsAt (e :: ch) c)
    (ht : TidyTag ch e.name e.attrs) (h : readToken fuel (.stop e.name) c = (.ok u, c')) : FlagsAt ch c' := by
  obtain ⟨name, attrs⟩ := e
  obtain ⟨t1, t2, t3, t4, t5⟩ := ht
  dsimp only at t1 t2 t3 t4 t5 h
  have hG : ¬ IsGrad name → insideGrad (⟨name, attrs⟩ :: ch) = insideGrad ch := by
    intro hg
    unfold insideGrad
    rw [inside_tag_ne "linearGradient" (fun h => hg (.inl h)), inside_tag_ne "radialGradient" (fun h => hg (.inr h))]
  rw [readToken] at h
  unfold readEndElement at h
  rw [SM.bind_run] at h
  unfold popStyle at h
  cases hs : c.styleStack with
  | nil => rw [hs] at h; cases h
  | cons st rest =>
    rw [hs] at h
    dsimp only at h
    rw [SM.modify_run] at h
    obtain ⟨-, rfl⟩ := Prod.mk.injEq .. ▸ h
    have hpop : FlagsAt (⟨name, attrs⟩ :: ch) { c with styleStack := rest } := ⟨hf.1, hf.2, hf.3, hf.4, hf.5, hf.6⟩
    by_cases hg : name = "g".toList
    · rw [if_pos hg]
      have := at_plain_inv (e := ⟨name, attrs⟩) (show name ∉ flagTags by rw [hg]; decide) hpop
      split
      · exact ⟨this.1, this.2, this.3, this.4, this.5, this.6⟩
      · exact this
    rw [if_neg hg]; have n0 := hg; clear hg
    by_cases hg : name = "mask".toList
    · rw [if_pos hg]
      have e1 := inside_tag_ne "defs" (name := name) (by rw [hg]; decide) attrs ch
      have e2 := inside_tag_ne "title" (name := name) (by rw [hg]; decide) attrs ch
      have e3 := inside_tag_ne "desc" (name := name) (by rw [hg]; decide) attrs ch
      have hG := hG (by rw [hg]; decide)
      have hm : false = (inside "mask" ch && !inside "defs" ch) := by
        cases hd : inside "defs" ch with
        | true => simp
        | false => rw [t5 hd hg]; rfl
      have i1 := hf.inDefs; have i2 := hf.inGrad; have i3 := hf.inTitle; have i4 := hf.inDesc
      rw [e1] at i1; rw [hG] at i2; rw [e1, e2] at i3; rw [e1, e3] at i4
      split
      · exact ⟨i1, i2, hm, rfl, i3, i4⟩
      · rename_i hmk
        exact ⟨i1, i2, hm, by dsimp only at hmk ⊢; rw [hmk]; rfl, i3, i4⟩
    rw [if_neg hg]; have n1 := hg; clear hg
    by_cases hg : name = "title".toList
    · rw [if_pos hg]
      have e1 := inside_tag_ne "defs" (name := name) (by rw [hg]; decide) attrs ch
      have e2 := inside_tag_ne "mask" (name := name) (by rw [hg]; decide) attrs ch
      have e3 := inside_tag_ne "desc" (name := name) (by rw [hg]; decide) attrs ch
      have hG := hG (by rw [hg]; decide)
      have hm : false = (inside "title" ch && !inside "defs" ch) := by
        cases hd : inside "defs" ch with
        | true => simp
        | false => rw [t3 hd hg]; rfl
      have i1 := hf.inDefs; have i2 := hf.inGrad; have i3 := hf.inMask; have i4 := hf.inDesc
      rw [e1] at i1; rw [hG] at i2; rw [e1, e2] at i3; rw [e1, e3] at i4
      exact ⟨i1, i2, i3, hf.mask, hm, i4⟩
    rw [if_neg hg]; have n2 := hg; clear hg
    by_cases hg : name = "desc".toList
    · rw [if_pos hg]
      have e1 := inside_tag_ne "defs" (name := name) (by rw [hg]; decide) attrs ch
      have e2 := inside_tag_ne "mask" (name := name) (by rw [hg]; decide) attrs ch
      have e3 := inside_tag_ne "title" (name := name) (by rw [hg]; decide) attrs ch
      have hG := hG (by rw [hg]; decide)
      have hm : false = (inside "desc" ch && !inside "defs" ch) := by
        cases hd : inside "defs" ch with
        | true => simp
        | false => rw [t4 hd hg]; rfl
      have i1 := hf.inDefs; have i2 := hf.inGrad; have i3 := hf.inMask; have i4 := hf.inTitle
      rw [e1] at i1; rw [hG] at i2; rw [e1, e2] at i3; rw [e1, e3] at i4
      exact ⟨i1, i2, i3, hf.mask, i4, hm⟩
    rw [if_neg hg]; have n3 := hg; clear hg
    by_cases hg : name = "defs".toList
    · rw [if_pos hg]
      obtain ⟨u1, u2, u3, u4⟩ := t1 hg
      have e1 : inside "defs" (⟨name, attrs⟩ :: ch) = true := inside_cons_self hg ch
      have hG := hG (by rw [hg]; decide)
      have i2 := hf.inGrad; have i3 := hf.inMask; have i4 := hf.inTitle; have i5 := hf.inDesc
      rw [hG] at i2
      rw [e1] at i3 i4 i5
      simp only [Bool.not_true, Bool.and_false] at i3 i4 i5
      have j3 : c.inMask = (inside "mask" ch && !inside "defs" ch) := by rw [i3, u2]; rfl
      have j4 : c.inTitleText = (inside "title" ch && !inside "defs" ch) := by rw [i4, u3]; rfl
      have j5 : c.inDescText = (inside "desc" ch && !inside "defs" ch) := by rw [i5, u4]; rfl
      split <;> exact ⟨u1.symm, i2, j3, hf.mask, j4, j5⟩
    rw [if_neg hg]
    by_cases hgr : name = "radialGradient".toList ∨ name = "linearGradient".toList
    · rw [if_pos hgr]
      have hgd : IsGrad name := hgr.symm
      have e1 := inside_tag_ne "defs" hg attrs ch
      have e2 := inside_tag_ne "mask" n1 attrs ch
      have e3 := inside_tag_ne "title" n2 attrs ch
      have e4 := inside_tag_ne "desc" n3 attrs ch
      have hng : insideGrad ch = false := by
        cases hx : insideGrad ch with
        | false => rfl
        | true => rw [t2 hx] at hgd; exact absurd hgd (by decide)
      have i1 := hf.inDefs; have i3 := hf.inMask; have i4 := hf.inTitle; have i5 := hf.inDesc
      rw [e1] at i1; rw [e1, e2] at i3; rw [e1, e3] at i4; rw [e1, e4] at i5
      exact ⟨i1, hng.symm, i3, hf.mask, i4, i5⟩
    · rw [if_neg hgr]
      refine at_plain_inv (e := ⟨name, attrs⟩) ?_ hpop
      simp only [flagTags, List.mem_cons, List.not_mem_nil, or_false, not_or]
      exact ⟨hg, fun h => hgr (.inr h), fun h => hgr (.inl h), n1, n2, n3⟩

/-! ### Complete definitions -/

/-- The number of groups among the elements. -/
def groups (ch : List Elem) : Nat := ch.countP fun e => e.name = "g".toList

/-- What has been recorded fits the open elements. -/
structure DefsAt (ch : List Elem) (c : Cursor F) : Prop where
  defs : DefsOK c
  outside : inside "defs" ch = false → c.currentDef = []
  current : inside "defs" ch = true → defDepth 0 c.currentDef = some (groups (belowDefs ch))

theorem belowDefs_cons {e : Elem} (h : e.name ≠ "defs".toList) (ch : List Elem) : belowDefs (e :: ch) = e :: belowDefs ch := by
  unfold belowDefs; rw [List.takeWhile_cons, if_pos (by simpa using h)]

theorem belowDefs_defs {e : Elem} (h : e.name = "defs".toList) (ch : List Elem) : belowDefs (e :: ch) = [] := by
  unfold belowDefs; rw [List.takeWhile_cons, if_neg (by simpa using h)]

theorem defsAt_cons {ch : List Elem} {c : Cursor F} {e : Elem} (h1 : e.name ≠ "defs".toList) (h2 : e.name ≠ "g".toList)
    (h : DefsAt ch c) : DefsAt (e :: ch) c := by
  refine ⟨h.defs, ?_, ?_⟩
  · rw [inside_cons_ne h1]; exact h.outside
  · rw [inside_cons_ne h1, belowDefs_cons h1]
    intro hi
    rw [h.current hi]
    unfold groups
    rw [List.countP_cons_of_neg (by simpa using h2)]

theorem defsAt_cons_out {ch : List Elem} {c : Cursor F} {e : Elem} (h1 : e.name ≠ "defs".toList) (h2 : inside "defs" ch = false)
    (h : DefsAt ch c) : DefsAt (e :: ch) c := by
  refine ⟨h.defs, fun _ => h.outside h2, ?_⟩
  rw [inside_cons_ne h1, h2]
  intro h; cases h

theorem defsAt_cons_inv {ch : List Elem} {c : Cursor F} {e : Elem} (h1 : e.name ≠ "defs".toList) (h2 : e.name ≠ "g".toList)
    (h : DefsAt (e :: ch) c) : DefsAt ch c := by
  refine ⟨h.defs, ?_, ?_⟩
  · have := h.outside; rwa [inside_cons_ne h1] at this
  · have := h.current
    rw [inside_cons_ne h1, belowDefs_cons h1] at this
    intro hi
    rw [this hi]
    unfold groups
    rw [List.countP_cons_of_neg (by simpa using h2)]

theorem defsAt_rel {ch : List Elem} {c c' : Cursor F} (h1 : c'.svg.defs = c.svg.defs) (h2 : c'.currentDef = c.currentDef)
    (h : DefsAt ch c) : DefsAt ch c' :=
  ⟨by intro id ds; rw [h1]; exact h.defs id ds, by rw [h2]; exact h.outside, by rw [h2]; exact h.current⟩

theorem lastID_mem {attrs : List Attr} (h : lastID attrs ≠ []) : ∃ a ∈ attrs, a.name = "id".toList := by
  by_contra hn
  apply h
  unfold lastID
  have key : ∀ (l : List Attr) (i : Str), (∀ a ∈ l, a.name ≠ "id".toList) →
      l.foldl (fun id a => if a.name = "id".toList then a.value else id) i = i := by
    intro l
    induction l with
    | nil => intro i _; rfl
    | cons a l ih =>
      intro i hl
      rw [List.foldl_cons, if_neg (hl a List.mem_cons_self)]
      exact ih i fun a h => hl a (List.mem_cons_of_mem _ h)
  exact key attrs [] fun a ha h => hn ⟨a, ha, h⟩

theorem inside_groups {ch : List Elem} (h : inside "g" ch = false) : groups ch = 0 := by
  unfold groups
  rw [List.countP_eq_zero]
  intro e he hn
  have : inside "g" ch = true := by
    unfold inside; rw [List.any_eq_true]; exact ⟨e, he, by simpa using hn⟩
  rw [h] at this; cases this

/-- One more recorded element. -/
theorem defDepth_one {n : Nat} {d : Definition} (h : d.tag ∈ quietTags ∨ d.tag = "use".toList) :
    defDepth n [d] = some (if d.tag = "g".toList then n + 1 else n) := by
  have he : d.tag ≠ "endg".toList := by
    intro h'; rw [h'] at h; revert h; decide
  rw [defDepth.eq_def]
  dsimp only
  rw [if_neg he]
  by_cases hg : d.tag = "g".toList
  · rw [if_pos hg, if_pos hg]; rfl
  · rw [if_neg hg, if_neg hg, if_pos h]; rfl

theorem defDepth_endg_one (n : Nat) : defDepth (n + 1) [⟨[], "endg".toList, []⟩] = some n := rfl

theorem recordDef_at {ch : List Elem} {c : Cursor F} {name : Str} {attrs : List Attr} (hi : inside "defs" ch = true)
    (hg : insideGrad ch = false) (hn : ¬ IsGrad name) (hnd : name ≠ "defs".toList) (ht : DefsTag ch name attrs) (h : DefsAt ch c) :
    DefsAt (⟨name, attrs⟩ :: ch) (recordDef name attrs c) := by
  obtain ⟨h1, h2⟩ := ht hi hg hn
  have hcur := h.current hi
  have hq := reusable_quiet h1
  have hin : inside "defs" (⟨name, attrs⟩ :: ch) = true := by rw [inside_cons, hi]; simp
  have hgr : groups (belowDefs (⟨name, attrs⟩ :: ch)) =
      if name = "g".toList then groups (belowDefs ch) + 1 else groups (belowDefs ch) := by
    rw [belowDefs_cons hnd]
    unfold groups
    by_cases hgg : name = "g".toList
    · rw [List.countP_cons_of_pos (by simpa using hgg), if_pos hgg]
    · rw [List.countP_cons_of_neg (by simpa using hgg), if_neg hgg]
  have hfresh : lastID attrs ≠ [] → groups (belowDefs ch) = 0 := fun hid => inside_groups (h2 (lastID_mem hid))
  unfold recordDef
  dsimp only
  split
  · rename_i d0 l hcd
    split
    · rename_i hid
      refine ⟨fun id ds hf => ?_, fun h => ?_, fun _ => ?_⟩
      · rcases find_insert_some hf with rfl | hf
        · rw [hcur, hfresh hid]
        · exact h.defs id ds hf
      · rw [hin] at h; cases h
      · rw [hgr, hfresh hid]
        exact defDepth_one (n := 0) (d := ⟨lastID attrs, name, attrs⟩) hq
    · refine ⟨h.defs, fun h => ?_, fun _ => ?_⟩
      · rw [hin] at h; cases h
      · dsimp only
        rw [defDepth_append, hcur, hgr]
        exact defDepth_one (d := ⟨lastID attrs, name, attrs⟩) hq
  · refine ⟨h.defs, fun h => ?_, fun _ => ?_⟩
    · rw [hin] at h; cases h
    · dsimp only
      rw [defDepth_append, hcur, hgr]
      exact defDepth_one (d := ⟨lastID attrs, name, attrs⟩) hq

theorem start_defs {fuel : Nat} {name : Str} {attrs : List Attr} {c c' : Cursor F} {u : Unit} {ch : List Elem} (hf : FlagsAt ch c)
    (hd : DefsAt ch c) (ht : TidyTag ch name attrs) (ht' : DefsTag ch name attrs)
    (h : readToken fuel (.start name attrs) c = (.ok u, c')) : DefsAt (⟨name, attrs⟩ :: ch) c' := by
  rw [readToken, SM.bind_run] at h
  have hE := pushStyle_elem attrs c
  have hF := flagR_at (pushStyle_flag attrs c) hf
  rcases hp : pushStyle attrs c with ⟨r, d⟩
  rw [hp] at h hE hF
  dsimp only at hE hF
  have hdd : DefsAt ch d := defsAt_rel hE.defs hE.currentDef hd
  -- elements that are executed leave the definitions alone
  have hexec : (d.inDefs = false ∨ name = "radialGradient".toList ∨ name = "linearGradient".toList ∨ d.inGrad = true) →
      DefsAt (⟨name, attrs⟩ :: ch) d := by
    intro hwhy
    by_cases hdf : name = "defs".toList
    · obtain ⟨u1, -⟩ := ht.1 hdf
      refine ⟨hdd.defs, fun h => ?_, fun _ => ?_⟩
      · rw [inside_cons_self (n := "defs") (e := ⟨name, attrs⟩) hdf] at h; cases h
      · rw [belowDefs_defs hdf, hdd.outside u1]; rfl
    · by_cases hi : inside "defs" ch = false
      · exact defsAt_cons_out hdf hi hdd
      · have hng : name ≠ "g".toList := by
          rcases hwhy with hw | hw | hw | hw
          · exact absurd (hF.inDefs ▸ hw) hi
          · rw [hw]; decide
          · rw [hw]; decide
          · rw [ht.2.1 (hF.inGrad ▸ hw)]; decide
        exact defsAt_cons hdf hng hdd
  cases r with
  | ok u =>
    dsimp only at h
    rcases readStartElement_cases fuel name attrs d with ⟨h1, h2, h3, h4, h'⟩ |
      ⟨hwhy, ⟨hno, h'⟩ | ⟨df, hdr, ⟨hn, h'⟩ | ⟨-, c2, hEm, h'⟩ | ⟨-, -, h'⟩⟩⟩
    · rw [h'] at h; cases h
      have hin : inside "defs" ch = true := by rw [← hF.inDefs]; exact h1
      refine recordDef_at hin (by rw [← hF.inGrad]; exact h4) (by rintro (h | h); exact h3 h; exact h2 h) (fun hn => ?_) ht' hdd
      rw [(ht.1 hn).1] at hin; cases hin
    · rw [h'] at h
      have := handleError_elem (.cannotProcess name) d
      rw [h] at this
      exact defsAt_rel this.defs this.currentDef (hexec hwhy)
    · rw [h'] at h; rw [h] at hn; exact absurd trivial hn
    · rw [h'] at h
      obtain ⟨hres, rfl⟩ : (df attrs d).1 = .ok u ∧ c2 = c' := by simpa using h
      have := drawFuncs_elem hdr attrs d
      have := defsAt_rel this.defs this.currentDef (hexec hwhy)
      cases hEm with
      | nothing => exact this
      | lost => exact defsAt_rel (by rfl) (by rfl) this
      | mask => exact defsAt_rel (by rfl) (by rfl) this
      | doc => exact defsAt_rel (by rfl) (by rfl) this
    · rw [h'] at h; cases h
  | err _ => cases h
  | panic _ => cases h
  | diverge => cases h

theorem stop_defs {fuel : Nat} {e : Elem} {c c' : Cursor F} {u : Unit} {ch : List Elem} (hf : FlagsAt (e :: ch) c)
    (hd : DefsAt (e :: ch) c) (ht : TidyTag ch e.name e.attrs) (h : readToken fuel (.stop e.name) c = (.ok u, c')) : DefsAt ch c' := by
  obtain ⟨name, attrs⟩ := e
  dsimp only at ht h
  rw [readToken] at h
  unfold readEndElement at h
  rw [SM.bind_run] at h
  unfold popStyle at h
  cases hs : c.styleStack with
  | nil => rw [hs] at h; cases h
  | cons st rest =>
    rw [hs] at h
    dsimp only at h
    rw [SM.modify_run] at h
    obtain ⟨-, rfl⟩ := Prod.mk.injEq .. ▸ h
    by_cases hg : name = "g".toList
    · rw [if_pos hg]
      have hnd : name ≠ "defs".toList := by rw [hg]; decide
      have e1 := inside_tag_ne "defs" hnd attrs ch
      by_cases hi : c.inDefs = true
      · rw [if_pos (show ({ c with styleStack := rest } : Cursor F).inDefs = true from hi)]
        have hin : inside "defs" ch = true := by rw [← e1, ← hf.inDefs]; exact hi
        have hcur := hd.current (by rw [e1]; exact hin)
        rw [belowDefs_cons hnd] at hcur
        unfold groups at hcur
        rw [List.countP_cons_of_pos (by simpa using hg)] at hcur
        refine ⟨hd.defs, fun h => ?_, fun _ => ?_⟩
        · rw [hin] at h; cases h
        · dsimp only
          rw [defDepth_append, hcur]
          exact defDepth_endg_one _
      · rw [if_neg (show ¬ ({ c with styleStack := rest } : Cursor F).inDefs = true from hi)]
        have hin : inside "defs" ch = false := by
          rw [← e1, ← hf.inDefs]; simpa using hi
        exact ⟨hd.defs, fun _ => hd.outside (by rw [e1]; exact hin), fun h => by rw [hin] at h; cases h⟩
    rw [if_neg hg]
    by_cases hdf : name = "defs".toList
    · rw [if_neg (by rw [hdf]; decide), if_neg (by rw [hdf]; decide), if_neg (by rw [hdf]; decide), if_pos hdf]
      obtain ⟨u1, -⟩ := ht.1 hdf
      have hcur := hd.current (inside_cons_self (n := "defs") (e := ⟨name, attrs⟩) hdf ch)
      rw [belowDefs_defs hdf] at hcur
      split
      · refine ⟨fun id ds hf => ?_, fun _ => rfl, fun h => by rw [u1] at h; cases h⟩
        rcases find_insert_some hf with rfl | hf
        · exact hcur
        · exact hd.defs id ds hf
      · rename_i hn
        exact ⟨hd.defs, fun _ => hn, fun h => by rw [u1] at h; cases h⟩
    · have h0 := defsAt_cons_inv (e := ⟨name, attrs⟩) hdf hg hd
      repeat' split
      all_goals first | exact defsAt_rel (by rfl) (by rfl) h0 | contradiction

end GoSvg
