import Verif.Lemmas.Safe

/-! `use` of complete definitions: the style stack is restored, flags stay, no panic but those of colours. -/

set_option linter.unusedSectionVars false

namespace GoSvg

open Spec

variable {F : Type} [GoFloat F] [GoEnv]

open SM (get modify throw lift panic diverge forEach)

/-- The colours of an element panic at sites of `B` only. -/
structure AttrOK (B : Site → Prop) (attrs : List Attr) : Prop where
  paint : PaintOK B (decls attrs)
  stop : StopOK B attrs

theorem attrOK_color (attrs : List Attr) : AttrOK (· = .color) attrs :=
  ⟨fun kv _ _ => parseSVGColor_within kv.2, fun a _ _ => parseSVGColor_within a.value⟩

theorem attrOK_nil (B : Site → Prop) : AttrOK B [] :=
  ⟨fun kv h => absurd h (by simp [decls, stylePairs]), fun a h => absurd h (by simp [appendStyleAttrs])⟩

/-- The same for every recorded element. -/
def DefsAttrs (B : Site → Prop) (c : Cursor F) : Prop :=
  ∀ id ds, c.svg.defs.find id = some ds → ∀ d ∈ ds, AttrOK B d.attrs

/-- A state from which complete definitions can be used. -/
structure UseInv (B : Site → Prop) (c : Cursor F) : Prop where
  stack : c.styleStack ≠ []
  defs : DefsOK c
  attrs : DefsAttrs B c
  grad : GradOK c

/-- What the use of complete definitions does. -/
structure UseDone (B : Site → Prop) (c : Cursor F) (p : Res Unit × Cursor F) : Prop where
  within : p.1.Within B True
  rel : UseR c p.2
  grad : GradOK p.2
  stack : p.1 = .ok () → p.2.styleStack = c.styleStack
  ne : p.2.styleStack ≠ []

theorem quiet_some {fuel : Nat} {use : List Attr → CM F Unit} {tag : Str} (h : tag ∈ quietTags) :
    ∃ df, drawFuncs fuel use tag = some df := by
  simp only [quietTags, shapeTags, List.cons_append, List.nil_append, List.mem_cons, List.not_mem_nil, or_false] at h
  rcases h with rfl | rfl | rfl | rfl | rfl | rfl | rfl | rfl | rfl | rfl <;> exact ⟨_, rfl⟩

theorem quiet_ne_use {tag : Str} (h : tag ∈ quietTags) : tag ≠ "use".toList := by
  rintro rfl; revert h; decide

theorem quiet_done {B : Site → Prop} {fuel : Nat} {use : List Attr → CM F Unit} {tag : Str} {df : List Attr → CM F Unit}
    (h : drawFuncs fuel use tag = some df) (ht : tag ∈ quietTags) {attrs : List Attr} (ha : AttrOK B attrs) {c : Cursor F}
    (hc : UseInv B c) : UseDone B c (df attrs c) := by
  have hu := quiet_ne_use ht
  have hp := drawFuncs_plain h hu attrs c
  exact ⟨drawFuncs_within h hu (.inl trivial) attrs ha.stop c (.inl hc.stack) hc.grad, ⟨quiet_flag h ht attrs c, hp.toElemR⟩,
    drawFuncs_keepsGrad h hu attrs c hc.grad, fun _ => hp.styleStack,
    by rw [hp.styleStack]; exact hc.stack⟩

theorem pushStyle_useR (attrs : List Attr) : Keeps UseR (pushStyle attrs : CM F Unit) :=
  fun c => ⟨pushStyle_flag attrs c, pushStyle_elem attrs c⟩

theorem popStyle_useR : Keeps UseR (popStyle : CM F Unit) := fun c => ⟨popStyle_flag c, popStyle_elem c⟩

theorem defDepth_endg {k : Nat} {d : Definition} {ds : List Definition} {n : Nat} (hd : d.tag = "endg".toList)
    (h : defDepth k (d :: ds) = some n) : ∃ k', k = k' + 1 ∧ defDepth k' ds = some n := by
  rw [defDepth.eq_def] at h
  dsimp only at h
  rw [if_pos hd] at h
  cases k with
  | zero => cases h
  | succ k => exact ⟨k, rfl, h⟩

theorem defDepth_other {k : Nat} {d : Definition} {ds : List Definition} {n : Nat} (hd : d.tag ≠ "endg".toList)
    (h : defDepth k (d :: ds) = some n) : (d.tag ∈ quietTags ∨ d.tag = "use".toList) ∧
      defDepth (if d.tag = "g".toList then k + 1 else k) ds = some n := by
  rw [defDepth.eq_def] at h
  dsimp only at h
  rw [if_neg hd] at h
  by_cases hg : d.tag = "g".toList
  · rw [if_pos hg] at h ⊢
    exact ⟨.inl (by rw [hg]; decide), h⟩
  · rw [if_neg hg] at h ⊢
    split at h
    · rename_i hq; exact ⟨hq, h⟩
    · cases h

theorem useInv_rel {B : Site → Prop} {c d : Cursor F} (h : UseR c d) (hs : d.styleStack ≠ []) (hg : GradOK d) (hc : UseInv B c) :
    UseInv B d :=
  ⟨hs, useR_defs h hc.defs, by intro id ds; rw [h.elem.defs]; exact hc.attrs id ds, hg⟩

theorem useLoop_done {B : Site → Prop} {draw : Str → Option (List Attr → CM F Unit)}
    (hd : ∀ tag, tag ∈ quietTags ∨ tag = "use".toList → ∃ df, draw tag = some df ∧
      ∀ attrs, AttrOK B attrs → ∀ c, UseInv B c → UseDone B c (df attrs c)) (base : List (PathStyle F)) (hb : base ≠ []) :
    ∀ (ds : List Definition), (∀ d ∈ ds, AttrOK B d.attrs) → ∀ (top : List (PathStyle F)) (c : Cursor F),
      c.styleStack = top ++ base → UseInv B c → defDepth top.length ds = some 0 →
      ((useLoop draw ds c).1.Within B True ∧ UseR c (useLoop draw ds c).2 ∧ GradOK (useLoop draw ds c).2 ∧
        ((useLoop draw ds c).1 = .ok () → (useLoop draw ds c).2.styleStack = base) ∧ (useLoop draw ds c).2.styleStack ≠ []) := by
  intro ds
  induction ds with
  | nil =>
    intro _ top c hs hc h
    have : top.length = 0 := by simpa [defDepth] using h
    rw [List.length_eq_zero_iff] at this
    subst this
    exact ⟨trivial, useR_pre.refl c, hc.grad, fun _ => hs, hc.stack⟩
  | cons d ds ih =>
    intro ha top c hs hc h
    have ha' : ∀ d ∈ ds, AttrOK B d.attrs := fun d h => ha d (List.mem_cons_of_mem _ h)
    rw [useLoop]
    by_cases he : d.tag = "endg".toList
    · obtain ⟨k, hk, h1⟩ := defDepth_endg he h
      cases top with
      | nil => cases hk
      | cons t top =>
        rw [if_pos he, SM.bind_run]
        have hr := popStyle_useR c
        have hkg := popStyle_keepsGrad c hc.grad
        have hp : popStyle c = (.ok (), { c with styleStack := top ++ base }) := by
          unfold popStyle; rw [hs]; rfl
        rw [hp] at hr hkg ⊢
        dsimp only at hr hkg ⊢
        have hi : UseInv B { c with styleStack := top ++ base } := useInv_rel hr (by simp [hb]) hkg hc
        have hlen : top.length = k := by simpa using hk
        obtain ⟨r1, r2, r3, r4, r5⟩ := ih ha' top _ rfl hi (by rw [hlen]; exact h1)
        exact ⟨r1, useR_pre.trans hr r2, r3, r4, r5⟩
    · obtain ⟨hq, h⟩ := defDepth_other he h
      rw [if_neg he, SM.bind_run]
      have hr := pushStyle_useR d.attrs c
      have hkg := pushStyle_keepsGrad d.attrs c hc.grad
      have hw := pushStyle_within (B := B) d.attrs c (.inl hc.stack) (ha d List.mem_cons_self).paint
      rcases hp : pushStyle d.attrs c with ⟨r, c1⟩
      rw [hp] at hr hkg hw
      have hst : ∀ u, r = .ok u → ∃ st, c1.styleStack = st :: c.styleStack := by
        rintro u rfl
        rcases pushStyle_frame d.attrs c with ⟨_, _, st, c2, -, -, -, h'⟩ | ⟨h', -⟩
        · rw [hp] at h'; cases h'; exact ⟨st, rfl⟩
        · rw [hp] at h'; exact absurd rfl (h' u)
      have hne : c1.styleStack ≠ [] := by
        rcases pushStyle_frame d.attrs c with ⟨_, _, st, c2, -, -, -, h'⟩ | ⟨-, h'⟩
        · rw [hp] at h'; cases h'; exact List.cons_ne_nil _ _
        · rw [hp] at h'; have e := h'.eq; dsimp only at e; rw [e]; exact hc.stack
      cases r with
      | err e => exact ⟨trivial, hr, hkg, (fun h => nomatch h), hne⟩
      | panic s => exact ⟨hw, hr, hkg, (fun h => nomatch h), hne⟩
      | diverge => exact ⟨trivial, hr, hkg, (fun h => nomatch h), hne⟩
      | ok u =>
        obtain ⟨st, hst⟩ := hst u rfl
        obtain ⟨df, hdf, hdone⟩ := hd d.tag hq
        have hi1 : UseInv B c1 := useInv_rel hr (by rw [hst]; simp) hkg hc
        have hd1 := hdone d.attrs (ha d List.mem_cons_self) c1 hi1
        dsimp only
        rw [hdf]
        dsimp only
        rw [SM.bind_run]
        rcases hx : df d.attrs c1 with ⟨r2, c2⟩
        rw [hx] at hd1
        have hr2 := useR_pre.trans hr hd1.rel
        cases r2 with
        | err e => exact ⟨trivial, hr2, hd1.grad, (fun h => nomatch h), hd1.ne⟩
        | panic s => exact ⟨hd1.within, hr2, hd1.grad, (fun h => nomatch h), hd1.ne⟩
        | diverge => exact ⟨trivial, hr2, hd1.grad, (fun h => nomatch h), hd1.ne⟩
        | ok u =>
          have hs2 : c2.styleStack = st :: c.styleStack := (hd1.stack rfl).trans hst
          have hi2 : UseInv B c2 := useInv_rel hd1.rel (by show c2.styleStack ≠ []; rw [hs2]; simp) hd1.grad hi1
          dsimp only
          by_cases hg : d.tag = "g".toList
          · rw [if_pos hg] at h
            rw [if_neg (fun h => h hg)]
            obtain ⟨r1, r2, r3, r4, r5⟩ := ih ha' (st :: top) c2 (by rw [hs2, hs]; rfl) hi2 h
            exact ⟨r1, useR_pre.trans hr2 r2, r3, r4, r5⟩
          · rw [if_neg hg] at h
            rw [if_pos hg, SM.bind_run]
            have hr3 := popStyle_useR c2
            have hkg3 := popStyle_keepsGrad c2 hi2.grad
            have hp3 : popStyle c2 = (.ok (), { c2 with styleStack := c.styleStack }) := by
              unfold popStyle; rw [hs2]
            rw [hp3] at hr3 hkg3 ⊢
            dsimp only at hr3 hkg3 ⊢
            have hi3 : UseInv B { c2 with styleStack := c.styleStack } := useInv_rel hr3 hc.stack hkg3 hi2
            obtain ⟨r1, r2, r3, r4, r5⟩ := ih ha' top { c2 with styleStack := c.styleStack } hs hi3 h
            exact ⟨r1, useR_pre.trans hr2 (useR_pre.trans hr3 r2), r3, r4, r5⟩

theorem offset_useR (c : Cursor F) (x y : F) : UseR c { c with pc := { c.pc with curX := x, curY := y } } :=
  ⟨⟨rfl, rfl, rfl, rfl, rfl, rfl, rfl, rfl⟩, elemR_use.offset c x y⟩

theorem useBody_done {B : Site → Prop} {draw : Str → Option (List Attr → CM F Unit)}
    (hd : ∀ tag, tag ∈ quietTags ∨ tag = "use".toList → ∃ df, draw tag = some df ∧
      ∀ attrs, AttrOK B attrs → ∀ c, UseInv B c → UseDone B c (df attrs c)) (href : Str) (c : Cursor F) (hc : UseInv B c) :
    UseDone B c (useBody draw href c) := by
  have hthrow : ∀ e, UseDone B c (throw e c) := fun e => ⟨trivial, useR_pre.refl c, hc.grad, (fun h => nomatch h), hc.stack⟩
  unfold useBody
  by_cases hn : href = []
  · rw [if_pos hn]; exact hthrow _
  · rw [if_neg hn]
    split
    · rename_i id
      dsimp only
      rw [SM.bind_run, SM.get_run]
      dsimp only
      cases hf : c.svg.defs.find id with
      | none => exact hthrow _
      | some ds =>
        obtain ⟨r1, r2, r3, r4, r5⟩ := useLoop_done hd c.styleStack hc.stack ds (hc.attrs id ds hf) [] c rfl hc (hc.defs id ds hf)
        exact ⟨r1, r2, r3, r4, r5⟩
    · exact hthrow _

theorem withOffset_done {B : Site → Prop} (x y : F) {body : CM F Unit} (hb : ∀ c, UseInv B c → UseDone B c (body c))
    (c : Cursor F) (hc : UseInv B c) : UseDone B c (withOffset x y body c) := by
  have ho := offset_useR c x y
  have h := hb { c with pc := { c.pc with curX := x, curY := y } }
    (useInv_rel ho hc.stack (keepsGrad_eq rfl rfl rfl hc.grad) hc)
  unfold withOffset
  rcases hr : body { c with pc := { c.pc with curX := x, curY := y } } with ⟨r, d⟩
  rw [hr] at h
  exact ⟨h.within, useR_pre.trans ho (useR_pre.trans h.rel (offset_useR d _ _)), keepsGrad_eq rfl rfl rfl h.grad, h.stack, h.ne⟩

/-- `use` of complete definitions. -/
theorem useF_done {B : Site → Prop} : ∀ (fuel : Nat) (attrs : List Attr) (c : Cursor F), UseInv B c → UseDone B c (useF fuel attrs c)
  | 0, _, c, hc => ⟨trivial, useR_pre.refl c, hc.grad, (fun h => nomatch h), hc.stack⟩
  | fuel + 1, attrs, c, hc => by
    rw [useF, SM.bind_run, SM.get_run]
    dsimp only
    rw [SM.bind_run, SM.lift_run]
    have ht := loop_tame (useAttr_tame c.svg.viewBox) attrs ⟨[], num 0, num 0⟩
    cases hr : Res.loop (useAttr c.svg.viewBox) ⟨[], num 0, num 0⟩ attrs with
    | err e => exact ⟨trivial, useR_pre.refl c, hc.grad, (fun h => nomatch h), hc.stack⟩
    | panic s => rw [hr] at ht; exact absurd ht id
    | diverge => rw [hr] at ht; exact absurd ht id
    | ok v =>
      refine withOffset_done v.x v.y (fun c hc => useBody_done ?_ v.href c hc) c hc
      intro tag ht
      rcases ht with ht | rfl
      · obtain ⟨df, hdf⟩ := quiet_some (F := F) (fuel := fuel) (use := useF fuel) ht
        exact ⟨df, hdf, fun attrs ha c hc => quiet_done hdf ht ha hc⟩
      · exact ⟨useF fuel, rfl, fun attrs _ c hc => useF_done fuel attrs c hc⟩

/-! ### Any use -/

theorem popStyle_within {B : Site → Prop} (hB : B .styleStack) (c : Cursor F) : (popStyle c).1.Within B True := by
  unfold popStyle
  split
  · exact hB
  · trivial

/-- A state in which the gradient being read exists and the colours of the recorded elements are as required. -/
structure AnyInv (B : Site → Prop) (c : Cursor F) : Prop where
  attrs : DefsAttrs B c
  grad : GradOK c

theorem anyInv_rel {B : Site → Prop} {c d : Cursor F} (h : ElemR c d) (hg : KeepsGrad c d) (hc : AnyInv B c) : AnyInv B d :=
  ⟨by intro id ds; rw [h.defs]; exact hc.attrs id ds, hg hc.grad⟩

theorem safe_rel {α : Type} {B : Site → Prop} {m : CM F α} (h : ∀ c, AnyInv B c → (m c).1.Within B True) (h1 : Keeps ElemR m)
    (h2 : Keeps KeepsGrad m) : Safe B True (AnyInv B) m := fun c hc => ⟨h c hc, anyInv_rel (h1 c) (h2 c) hc⟩

theorem handleError_keepsGrad (m : Msg) : Keeps KeepsGrad (handleError m : CM F Unit) :=
  fun c => styleR_keepsGrad (handleError_styleR m c)

theorem useLoop_any {B : Site → Prop} (hB : B .styleStack) {draw : Str → Option (List Attr → CM F Unit)}
    (hd : ∀ tag df, draw tag = some df → ∀ attrs, AttrOK B attrs → Safe B True (AnyInv B) (df attrs)) :
    ∀ ds : List Definition, (∀ d ∈ ds, AttrOK B d.attrs) → Safe B True (AnyInv B) (useLoop draw ds)
  | [], _ => safe_pure _
  | d :: ds, ha => by
    have ih := useLoop_any hB hd ds fun d h => ha d (List.mem_cons_of_mem _ h)
    have hpop : Safe B True (AnyInv (F := F) B) popStyle := safe_rel (fun c _ => popStyle_within hB c) popStyle_elem popStyle_keepsGrad
    rw [useLoop]
    refine safe_ite (safe_bind hpop fun _ => ih) ?_
    refine safe_bind (safe_rel (fun c _ => within_mono (pushStyle_within d.attrs c (.inr hB) (ha d List.mem_cons_self).paint)
      (fun _ => id) False.elim) (pushStyle_elem _) (pushStyle_keepsGrad _)) fun _ => ?_
    cases hdr : draw d.tag with
    | none => exact safe_rel (fun c _ => tame_within (handleError_tame _ c)) (handleError_elem _) (handleError_keepsGrad _)
    | some df =>
      refine safe_bind (hd _ _ hdr _ (ha d List.mem_cons_self)) fun _ => ?_
      exact safe_ite (safe_bind hpop fun _ => ih) ih

theorem useBody_any {B : Site → Prop} (hB : B .styleStack) {draw : Str → Option (List Attr → CM F Unit)}
    (hd : ∀ tag df, draw tag = some df → ∀ attrs, AttrOK B attrs → Safe B True (AnyInv B) (df attrs)) (href : Str) :
    Safe B True (AnyInv B) (useBody draw href) := by
  unfold useBody
  by_cases hn : href = []
  · rw [if_pos hn]; exact safe_bind (safe_throw _) fun _ => by
      split
      · cases hn
      · exact safe_throw _
  · rw [if_neg hn]
    split
    · rename_i id
      intro c hc
      dsimp only
      rw [SM.bind_run, SM.get_run]
      dsimp only
      cases hf : c.svg.defs.find id with
      | none => exact ⟨trivial, hc⟩
      | some ds => exact useLoop_any hB hd ds (hc.attrs id ds hf) c hc
    · exact safe_throw _

/-- Any `use`: the only panics are those of colours and of the style stack. -/
theorem useF_any {B : Site → Prop} (hB : B .styleStack) :
    ∀ (fuel : Nat) (attrs : List Attr), Safe B True (AnyInv B) (useF fuel attrs : CM F Unit)
  | 0, _ => fun _ hc => ⟨trivial, hc⟩
  | fuel + 1, attrs => by
    rw [useF]
    refine safe_bind safe_get fun c => safe_bind (safe_lift (tame_within (loop_tame (useAttr_tame _) _ _))) fun v => ?_
    have hb := useBody_any (draw := drawFuncs (F := F) fuel (useF fuel)) hB (fun tag df hdr attrs ha => by
      by_cases ht : tag = "use".toList
      · subst ht; rw [drawFuncs_use] at hdr; cases hdr; exact useF_any hB fuel attrs
      · exact safe_rel (fun c hc => drawFuncs_within hdr ht (.inl trivial) attrs ha.stop c (.inr hB) hc.grad)
          (keeps_mono (drawFuncs_plain hdr ht attrs) fun _ _ h => h.toElemR) (drawFuncs_keepsGrad hdr ht attrs)) v.href
    intro c hc
    have h := hb { c with pc := { c.pc with curX := v.x, curY := v.y } } ⟨hc.attrs, hc.grad⟩
    unfold withOffset
    rcases hr : useBody (drawFuncs fuel (useF fuel)) v.href { c with pc := { c.pc with curX := v.x, curY := v.y } } with ⟨r, d⟩
    rw [hr] at h
    exact ⟨h.1, h.2.attrs, h.2.grad⟩

end GoSvg
