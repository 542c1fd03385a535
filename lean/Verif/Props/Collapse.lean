import Verif.Props.PlainGroup
import Verif.Lemmas.Gradients
import Verif.Props.Transforms
import Verif.Props.Styles

/-! C93: a group around a single element, and the attributes of the group on the element. -/

set_option linter.unusedSectionVars false

namespace GoSvg.Spec

/-- The elements whose style is that of the path they draw or of what is in them. -/
def drawnTags : List String := ["g", "rect", "circle", "ellipse", "line", "polyline", "polygon", "path"]

end GoSvg.Spec

namespace GoSvg

open Spec

section Generic

variable {F : Type} [GoFloat F] [GoEnv]

open SM (get modify throw lift panic diverge forEach)

/-- Another stack of styles. -/
def Cursor.restack (X : List (PathStyle F)) (c : Cursor F) : Cursor F := { c with styleStack := X }

/-- The program does not look at the stack of styles. -/
def Indep (X : List (PathStyle F)) {α : Type} (m : CM F α) : Prop := ∀ c, m (c.restack X) = ((m c).1, (m c).2.restack X)

variable {X : List (PathStyle F)} {α β : Type}

theorem indep_pure (a : α) : Indep X (pure a : CM F α) := fun _ => rfl
theorem indep_lift (a : Res α) : Indep X (lift a : CM F α) := fun _ => rfl
theorem indep_throw (a : Err) : Indep X (throw a : CM F α) := fun _ => rfl

theorem bind_restack {m : CM F α} {f : α → CM F β} {c : Cursor F} (h1 : m (c.restack X) = ((m c).1, (m c).2.restack X))
    (h2 : ∀ a d, m c = (.ok a, d) → f a (d.restack X) = ((f a d).1, (f a d).2.restack X)) :
    (m >>= f) (c.restack X) = (((m >>= f) c).1, ((m >>= f) c).2.restack X) := by
  rw [SM.bind_run, SM.bind_run, h1]
  rcases hr : m c with ⟨r, d⟩
  cases r with
  | ok a => exact h2 a d hr
  | err e => rfl
  | panic e => rfl
  | diverge => rfl

theorem indep_bind {m : CM F α} {f : α → CM F β} (h1 : Indep X m) (h2 : ∀ a, Indep X (f a)) : Indep X (m >>= f) :=
  fun c => bind_restack (h1 c) fun a d _ => h2 a d

theorem indep_get {f : Cursor F → CM F β} (h1 : ∀ c, f (c.restack X) = f c) (h2 : ∀ c, Indep X (f c)) : Indep X (get >>= f) := by
  intro c
  rw [SM.bind_run, SM.bind_run, SM.get_run, SM.get_run]
  dsimp only
  rw [h1]
  exact h2 c c

theorem indep_ite {p : Prop} [Decidable p] {m n : CM F α} (h1 : Indep X m) (h2 : Indep X n) : Indep X (if p then m else n) := by
  split
  · exact h1
  · exact h2

theorem indep_onPath (m : PM F α) : Indep X (onPath m : CM F α) := by
  intro c
  show (match m c.pc with | (r, pc) => (r, ({ c.restack X with pc := pc } : Cursor F))) = _
  unfold onPath
  rcases m c.pc with ⟨r, pc⟩
  rfl

theorem handleError_indep (m : Msg) : Indep X (handleError m : CM F Unit) := by
  intro c
  unfold handleError
  by_cases h1 : c.pc.errorMode = ErrorMode.strict
  · rw [if_pos h1, if_pos (show (c.restack X).pc.errorMode = ErrorMode.strict from h1)]
  rw [if_neg h1, if_neg (show ¬ (c.restack X).pc.errorMode = ErrorMode.strict from h1)]
  by_cases h2 : c.pc.errorMode = ErrorMode.warn
  · rw [if_pos h2, if_pos (show (c.restack X).pc.errorMode = ErrorMode.warn from h2)]; rfl
  rw [if_neg h2, if_neg (show ¬ (c.restack X).pc.errorMode = ErrorMode.warn from h2)]

theorem transformLoop_indep : ∀ (items : List Str) (m1 : Matrix2D F), Indep X (transformLoop m1 items)
  | [], m1 => indep_pure m1
  | item :: rest, m1 => by
    rw [transformLoop]
    refine indep_ite (transformLoop_indep rest m1) ?_
    split
    · exact indep_ite (indep_throw _) (indep_bind (indep_onPath _) fun _ => indep_get (fun _ => rfl) fun _ => indep_bind (indep_lift _) fun m =>
        transformLoop_indep rest m)
    · exact indep_throw _

/-- The transform in effect is the same on both stacks. -/
def SameTop (X Y : List (PathStyle F)) : Prop := ∃ t r t' r', X = t :: r ∧ Y = t' :: r' ∧ t.transform = t'.transform

theorem parseTransform_restack {c : Cursor F} (h : SameTop c.styleStack X) (v : Str) :
    (parseTransform v) (c.restack X) = ((parseTransform v c).1, (parseTransform v c).2.restack X) := by
  obtain ⟨t, r, t', r', h1, h2, h3⟩ := h
  unfold parseTransform
  rw [SM.bind_run, SM.bind_run, SM.get_run, SM.get_run]
  dsimp only
  rw [show (c.restack X).styleStack = t' :: r' from h2, h1]
  dsimp only
  rw [h3]
  exact transformLoop_indep _ _ c

theorem readStyleAttr_restack {c : Cursor F} {st : PathStyle F} {k v : Str} (h : k ≠ "transform".toList ∨ SameTop c.styleStack X) :
    readStyleAttr st k v (c.restack X) = ((readStyleAttr st k v c).1, (readStyleAttr st k v c).2.restack X) := by
  rw [readStyleAttr_eff, readStyleAttr_eff, show (c.restack X).svg = c.svg from rfl]
  cases he : styleEff c.svg st k v with
  | set r => exact indep_lift r c
  | warn m => exact indep_bind (handleError_indep m) (fun _ => indep_pure _) c
  | transform => exact bind_restack (parseTransform_restack (h.resolve_left fun hk => hk (styleEff_transform.1 he)) v) fun _ _ _ => rfl
  | mask => exact indep_bind (indep_lift _) (fun id _ => rfl) c

theorem declLoop_restack : ∀ (ds : List (Str × Str)) (st : PathStyle F) (c : Cursor F),
    (∀ d ∈ ds, d.1 ≠ "transform".toList) ∨ SameTop c.styleStack X → declLoop st ds (c.restack X) = ((declLoop st ds c).1, (declLoop st ds c).2.restack X)
  | [], _, _, _ => rfl
  | d :: ds, st, c, h => by
    rw [declLoop]
    refine bind_restack (readStyleAttr_restack (h.imp_left fun h => h d List.mem_cons_self)) fun a e he => declLoop_restack ds a e ?_
    refine h.imp (fun h x hx => h x (List.mem_cons_of_mem _ hx)) fun h => ?_
    have hf := declLoop_styleR [d] st c
    rw [declLoop, SM.bind_run, he] at hf
    replace hf : StyleR c e := hf
    rw [show e.styleStack = c.styleStack from by rw [hf.eq]]
    exact h

/-- Two lists of attributes on one element, or on an element and one in it. -/
theorem pushStyle_both {A B : List Attr} (hT : valuesOf "transform" A = [] ∨ valuesOf "transform" B = []) {c : Cursor F} {top : PathStyle F}
    {rest : List (PathStyle F)} (hs : c.styleStack = top :: rest) :
    (pushStyle A c = pushStyle (A ++ B) c ∧ ∀ u, (pushStyle A c).1 ≠ .ok u) ∨
    ∃ cA stA, StyleR c cA ∧ pushStyle A c = (.ok (), cA.restack (stA :: top :: rest)) ∧
      (((∀ u, (pushStyle (A ++ B) c).1 ≠ .ok u) ∧
        pushStyle B (cA.restack (stA :: top :: rest)) = ((pushStyle (A ++ B) c).1, (pushStyle (A ++ B) c).2.restack (stA :: top :: rest))) ∨
      ∃ s st, StyleR cA s ∧ pushStyle B (cA.restack (stA :: top :: rest)) = (.ok (), s.restack (st :: stA :: top :: rest)) ∧
        pushStyle (A ++ B) c = (.ok (), s.restack (st :: top :: rest))) := by
  have hpA := pushStyle_decls A c
  have hpAB := pushStyle_decls (A ++ B) c
  rw [hs] at hpA hpAB
  dsimp only at hpA hpAB
  rw [decls_append, declLoop_append] at hpAB
  rw [SM.bind_run] at hpA hpAB
  rw [SM.bind_run] at hpAB
  have hR := declLoop_styleR (decls A) top c
  rcases hA : declLoop top (decls A) c with ⟨rA, cA⟩
  rw [hA] at hpA hpAB hR
  cases rA with
  | err e => exact .inl ⟨hpA.trans hpAB.symm, by rw [hpA]; exact fun u h => nomatch h⟩
  | panic e => exact .inl ⟨hpA.trans hpAB.symm, by rw [hpA]; exact fun u h => nomatch h⟩
  | diverge => exact .inl ⟨hpA.trans hpAB.symm, by rw [hpA]; exact fun u h => nomatch h⟩
  | ok stA =>
    replace hR : StyleR c cA := hR
    have hsA : cA.styleStack = top :: rest := by rw [hR.eq]; exact hs
    refine .inr ⟨cA, stA, hR, ?_, ?_⟩
    · rw [hpA]
      dsimp only
      rw [SM.modify_run]
      unfold Cursor.restack
      rw [hsA]
    dsimp only at hpAB
    have hB := declLoop_restack (X := stA :: top :: rest) (decls B) stA cA (by
      rcases hT with hT | hT
      · exact .inr ⟨top, rest, stA, top :: rest, hsA, rfl, (declLoop_transform _ (decls_untransformed hT) hA).symm⟩
      · exact .inl (decls_untransformed hT))
    have hpB := pushStyle_decls B (cA.restack (stA :: top :: rest))
    rw [show (cA.restack (stA :: top :: rest)).styleStack = stA :: top :: rest from rfl] at hpB
    dsimp only at hpB
    rw [SM.bind_run, hB] at hpB
    have hRB := declLoop_styleR (decls B) stA cA
    rcases hy : declLoop stA (decls B) cA with ⟨rB, cB⟩
    rw [hy] at hpB hpAB hRB
    cases rB with
    | err e => exact .inl ⟨(by rw [hpAB]; exact fun u h => (nomatch h)), by rw [hpB, hpAB]⟩
    | panic e => exact .inl ⟨(by rw [hpAB]; exact fun u h => (nomatch h)), by rw [hpB, hpAB]⟩
    | diverge => exact .inl ⟨(by rw [hpAB]; exact fun u h => (nomatch h)), by rw [hpB, hpAB]⟩
    | ok st =>
      replace hRB : StyleR cA cB := hRB
      have hsB : cB.styleStack = top :: rest := by rw [hRB.eq]; exact hsA
      refine .inr ⟨cB, st, hRB, by rw [hpB]; rfl, ?_⟩
      rw [hpAB]
      dsimp only
      rw [SM.modify_run]
      unfold Cursor.restack
      rw [hsB]

theorem loop_skip {β : Type} {step : β → Attr → Res β} {A : List Attr} (h : ∀ a ∈ A, ∀ b, step b a = .ok b) (B : List Attr) (b : β) :
    Res.loop step b (A ++ B) = Res.loop step b B := by
  induction A with
  | nil => rfl
  | cons a as ih =>
    rw [List.cons_append, Res.loop, h a List.mem_cons_self]
    exact ih fun a ha => h a (List.mem_cons_of_mem _ ha)

theorem attrLoop_skip {β : Type} {step : β → Attr → CM F β} {A : List Attr} (h : ∀ a ∈ A, ∀ b, step b a = pure b) (B : List Attr) (b : β) :
    attrLoop step b (A ++ B) = attrLoop step b B := by
  induction A with
  | nil => rfl
  | cons a as ih =>
    rw [List.cons_append, attrLoop, h a List.mem_cons_self]
    exact ih fun a ha => h a (List.mem_cons_of_mem _ ha)

/-- An element does not look at attributes that are not its own. -/
theorem drawFuncs_skip {fuel : Nat} {use : List Attr → CM F Unit} {n : String} (hn : n ∈ drawnTags) {A : List Attr}
    (hA : ∀ a ∈ A, ∀ k ∈ ownNames n.toList, a.name ≠ k.toList) (B : List Attr) :
    ∃ df, drawFuncs fuel use n.toList = some df ∧ df (A ++ B) = df B := by
  simp only [drawnTags, List.mem_cons, List.not_mem_nil, or_false] at hn
  rcases hn with rfl | rfl | rfl | rfl | rfl | rfl | rfl | rfl
  · exact ⟨gF, rfl, rfl⟩
  · refine ⟨rectF fuel, rfl, ?_⟩
    unfold rectF
    have hl : ∀ vb : Bounds F, ∀ b, Res.loop (rectAttr vb) b (A ++ B) = Res.loop (rectAttr vb) b B := fun vb =>
      loop_skip (fun a ha b => by
        have := hA a ha
        rw [show ownNames "rect".toList = ["x", "y", "width", "height", "rx", "ry"] by decide] at this
        simp only [List.forall_mem_cons, List.not_mem_nil, false_implies, implies_true, and_true] at this
        obtain ⟨h1, h2, h3, h4, h5, h6⟩ := this
        unfold rectAttr
        rw [if_neg h1, if_neg h2, if_neg h3, if_neg h4, if_neg h5, if_neg h6]) B
    simp only [hl]
  · refine ⟨circleF, rfl, ?_⟩
    unfold circleF
    have hl : ∀ vb : Bounds F, ∀ b, Res.loop (circleAttr vb) b (A ++ B) = Res.loop (circleAttr vb) b B := fun vb =>
      loop_skip (fun a ha b => by
        have := hA a ha
        rw [show ownNames "circle".toList = ["cx", "cy", "r", "rx", "ry"] by decide] at this
        simp only [List.forall_mem_cons, List.not_mem_nil, false_implies, implies_true, and_true] at this
        obtain ⟨h1, h2, h3, h4, h5⟩ := this
        unfold circleAttr
        rw [if_neg h1, if_neg h2, if_neg h3, if_neg h4, if_neg h5]) B
    simp only [hl]
  · refine ⟨circleF, rfl, ?_⟩
    unfold circleF
    have hl : ∀ vb : Bounds F, ∀ b, Res.loop (circleAttr vb) b (A ++ B) = Res.loop (circleAttr vb) b B := fun vb =>
      loop_skip (fun a ha b => by
        have := hA a ha
        rw [show ownNames "ellipse".toList = ["cx", "cy", "r", "rx", "ry"] by decide] at this
        simp only [List.forall_mem_cons, List.not_mem_nil, false_implies, implies_true, and_true] at this
        obtain ⟨h1, h2, h3, h4, h5⟩ := this
        unfold circleAttr
        rw [if_neg h1, if_neg h2, if_neg h3, if_neg h4, if_neg h5]) B
    simp only [hl]
  · refine ⟨lineF, rfl, ?_⟩
    unfold lineF
    have hl : ∀ vb : Bounds F, ∀ b, Res.loop (lineAttr vb) b (A ++ B) = Res.loop (lineAttr vb) b B := fun vb =>
      loop_skip (fun a ha b => by
        have := hA a ha
        rw [show ownNames "line".toList = ["x1", "y1", "x2", "y2"] by decide] at this
        simp only [List.forall_mem_cons, List.not_mem_nil, false_implies, implies_true, and_true] at this
        obtain ⟨h1, h2, h3, h4⟩ := this
        unfold lineAttr
        rw [if_neg h1, if_neg h3, if_neg h2, if_neg h4]) B
    simp only [hl]
  · have hp : ∀ a ∈ A, ∀ u, polyAttr (F := F) u a = pure u := by
      intro a ha u
      have := hA a ha
      rw [show ownNames "polyline".toList = ["points"] by decide] at this
      exact if_neg (this _ List.mem_cons_self)
    refine ⟨polylineF, rfl, ?_⟩
    unfold polylineF
    rw [attrLoop_skip hp]
  · have hp : ∀ a ∈ A, ∀ u, polyAttr (F := F) u a = pure u := by
      intro a ha u
      have := hA a ha
      rw [show ownNames "polygon".toList = ["points"] by decide] at this
      exact if_neg (this _ List.mem_cons_self)
    refine ⟨polygonF, rfl, ?_⟩
    unfold polygonF polylineF
    rw [attrLoop_skip hp]
  · refine ⟨pathF, rfl, ?_⟩
    unfold pathF
    rw [attrLoop_skip]
    intro a ha u
    have := hA a ha
    rw [show ownNames "path".toList = ["d"] by decide] at this
    unfold pathAttr
    rw [if_neg (this _ List.mem_cons_self)]

theorem readStart_skip {fuel : Nat} {n : String} (hn : n ∈ drawnTags) {A : List Attr}
    (hA : ∀ a ∈ A, ∀ k ∈ ownNames n.toList, a.name ≠ k.toList) (B : List Attr) {c : Cursor F} (hd : c.inDefs = false) :
    readStartElement fuel n.toList (A ++ B) c = readStartElement fuel n.toList B c := by
  obtain ⟨df, h1, h2⟩ := drawFuncs_skip (F := F) (fuel := fuel) (use := useF fuel) hn hA B
  unfold readStartElement
  dsimp only
  rw [if_neg (by rintro ⟨h, -⟩; rw [hd] at h; cases h), if_neg (by rintro ⟨h, -⟩; rw [hd] at h; cases h), h1]
  dsimp only
  rw [h2]

/-- A start tag needs one style at most. -/
theorem readStart_nostack {fuel : Nat} {n : Str} (hu : n ≠ "use".toList) (attrs : List Attr) {c : Cursor F} (hg : GradOK c) (hs : c.styleStack ≠ []) :
    (readStartElement fuel n attrs c).1 ≠ .panic .styleStack := by
  have hso : StackOr (· = Site.color) c := .inl hs
  intro hp
  have key : ∀ df, drawFuncs fuel (useF fuel) n = some df → (df attrs c).1.Within (· = .color) True ∧ (df attrs c).2.styleStack ≠ [] := by
    intro df hdr
    refine ⟨drawFuncs_within hdr hu (.inl trivial) attrs (attrOK_color attrs).stop c hso hg, ?_⟩
    rw [(drawFuncs_plain hdr hu attrs c).styleStack]
    exact hs
  rcases readStartElement_cases fuel n attrs c with ⟨-, -, -, -, h⟩ | ⟨-, ⟨-, h⟩ | ⟨df, hdr, ⟨hn, h⟩ | ⟨-, c', hE, h⟩ | ⟨htm, hn, h⟩⟩⟩
  · rw [h] at hp; cases hp
  · rw [h] at hp
    have := handleError_tame (.cannotProcess n) c
    rw [hp] at this
    exact this
  · have := (key df hdr).1
    rw [h] at hp
    rw [hp] at this
    exact absurd this (by show ¬ (Site.styleStack = Site.color); decide)
  · have := (key df hdr).1
    rw [h] at hp
    dsimp only at hp
    rw [hp] at this
    exact absurd this (by show ¬ (Site.styleStack = Site.color); decide)
  · exact (key df hdr).2 hn

/-- The content of an element, with the style of the element only and with any styles below. -/
theorem group_body {fuel : Nat} {ch0 : List Elem} {R : List (PathStyle F)} (hR : R.length = ch0.length) {body post : List Token} {s : Cursor F}
    {t : PathStyle F} (hs : s.styleStack = [t]) (hj : TidyRest (· = .color) ch0 (body ++ post) (s.ext R)) (hb : openFrom [] body = some []) :
    ∃ (r : Res Unit) (s' : Cursor F), (∀ R', readTokens fuel body (s.ext R') = (r, s'.ext R')) ∧ (r = .ok () → s'.styleStack = [t] ∧ s'.inDefs = inside "defs" ch0) := by
  have hbody : openFrom ch0 body = some ch0 := openFrom_lift ch0 body [] [] hb
  have hj2 := tidyRest_prefix hj hbody
  have hw := short_walk (fuel := fuel) hR hj2 hb
  have hn : (readTokens fuel body s).1 ≠ .panic .styleStack := by
    intro h; rw [h] at hw; exact absurd hw (by show ¬ (Site.styleStack = Site.color); decide)
  refine ⟨(readTokens fuel body s).1, (readTokens fuel body s).2, fun R' => readTokens_above fuel body s hn, fun hok => ?_⟩
  have r1 := readTokens_above (R := R) fuel body s hn
  rw [hok] at r1
  have hwalk := tidy_walk (fuel := fuel) body _ _ _ hj2 hbody
  obtain ⟨up, h1, h2⟩ := restored (F := F) (J := TidyRest (· = .color)) (fuel := fuel) (fun ch t ts c hj => ⟨hj.inv, hj.useFine⟩)
    (fun ch t ts c ch1 c1 u hj hst hr => tidyRest_step hj hst hr) ch0 (s.ext R).styleStack body [] [] []
    (s.ext R) ((readTokens fuel body s).2.ext R) hj2 hb rfl rfl r1
  rw [r1] at hwalk
  refine ⟨?_, (hwalk.2 rfl).tidy.flags.inDefs⟩
  cases up with
  | cons _ _ => cases h2
  | nil =>
    have : (readTokens fuel body s).2.styleStack ++ R = s.styleStack ++ R := h1
    rw [List.append_cancel_right this, hs]

theorem gradOK_styleR {c c' : Cursor F} (h : StyleR c c') (hc : GradOK c) : GradOK c' := by
  rw [h.eq]
  exact hc

/-- The end of an element that is a shape or a group, outside of definitions. -/
theorem readEnd_drawn {n : String} (hn : n ∈ drawnTags) {fuel : Nat} {c : Cursor F} {t : PathStyle F} {R : List (PathStyle F)}
    (hs : c.styleStack = t :: R) (hd : c.inDefs = false) : readToken fuel (.stop n.toList) c = (.ok (), c.restack R) := by
  rw [readToken]
  unfold readEndElement
  rw [SM.bind_run]
  unfold popStyle
  rw [hs]
  dsimp only
  rw [SM.modify_run]
  simp only [drawnTags, List.mem_cons, List.not_mem_nil, or_false] at hn
  rcases hn with rfl | hn
  · rw [if_pos rfl, hd, if_neg (fun h => nomatch h), ← hd]; rfl
  · have : n.toList ≠ "g".toList ∧ n.toList ≠ "mask".toList ∧ n.toList ≠ "title".toList ∧ n.toList ≠ "desc".toList ∧ n.toList ≠ "defs".toList ∧
        n.toList ≠ "radialGradient".toList ∧ n.toList ≠ "linearGradient".toList := by
      rcases hn with rfl | rfl | rfl | rfl | rfl | rfl | rfl <;> decide
    obtain ⟨h1, h2, h3, h4, h5, h6, h7⟩ := this
    rw [if_neg h1, if_neg h2, if_neg h3, if_neg h4, if_neg h5, if_neg (not_or.2 ⟨h6, h7⟩)]
    rfl

/-- C93, partial, any tidy document in any mode: a group outside of `defs` around a single shape or group may be left out, if its
attributes are put before those of the element inside; the outcome is the same. Needed: at most one of the two has a `transform`, and
none of the attributes of the group means something else in the element (see `collapse_transform_false`). Missing: groups in `defs`, other
elements and documents that are not tidy. -/
theorem C93_collapse_partial {fuel : Nat} {m : ErrorMode} {pre body post : List Token} {n : String} {A B : List Attr} {fin : StreamEnd}
    (hn : n ∈ drawnTags)
    (ht : Tidy (pre ++ .start "g".toList A :: .start n.toList B :: (body ++ .stop n.toList :: .stop "g".toList :: post)))
    {ch : List Elem} (hch : openFrom [] pre = some ch) (hne : ch ≠ []) (hd : inside "defs" ch = false) (hb : openFrom [] body = some [])
    (hA : ∀ a ∈ A, ∀ k ∈ ownNames n.toList, a.name ≠ k.toList) (hT : valuesOf "transform" A = [] ∨ valuesOf "transform" B = []) :
    parse (F := F) fuel m (pre ++ .start "g".toList A :: .start n.toList B :: (body ++ .stop n.toList :: .stop "g".toList :: post)) fin =
    parse fuel m (pre ++ .start n.toList (A ++ B) :: (body ++ .stop n.toList :: post)) fin := by
  have hany : ∀ ts, (pre ++ ts).any Token.isStart = true := by
    intro ts
    rcases open_any hch with h | h
    · exact absurd (List.length_eq_zero_iff.1 (Nat.le_zero.1 h)) hne
    · rw [List.any_append, h, Bool.true_or]
  have hnu : n.toList ≠ "use".toList := by
    simp only [drawnTags, List.mem_cons, List.not_mem_nil, or_false] at hn
    rcases hn with rfl | rfl | rfl | rfl | rfl | rfl | rfl | rfl <;> decide
  have hnd' : n.toList ≠ "defs".toList := by
    simp only [drawnTags, List.mem_cons, List.not_mem_nil, or_false] at hn
    rcases hn with rfl | rfl | rfl | rfl | rfl | rfl | rfl | rfl <;> decide
  rw [parse_finish, parse_finish, hany, hany, readTokens_append, readTokens_append, SM.bind_run, SM.bind_run]
  rcases hr : readTokens fuel pre (initCursor (F := F) m) with ⟨r, c⟩
  cases r with
  | err e => rfl
  | panic e => rfl
  | diverge => rfl
  | ok u =>
    dsimp only
    obtain ⟨ch1, hch1, hrest⟩ := tidy_split (F := F) ht
    rw [hch] at hch1
    cases hch1
    have hj := hrest (· = .color) fuel m c (tokensOK_color _) hr
    have hp : c.pc.path = [] := by
      have := readTokens_clean fuel pre (initCursor (F := F) m) rfl (by rw [hr]; trivial)
      rwa [hr] at this
    have hdc : c.inDefs = false := hj.tidy.flags.inDefs.trans hd
    obtain ⟨top, rest, hs⟩ : ∃ top rest, c.styleStack = top :: rest := List.exists_cons_of_ne_nil hj.tidy.ne
    rw [readTokens_cons, readTokens_cons, SM.bind_run, SM.bind_run]
    have e1 : ∀ (k : Str) (attrs : List Attr) (d : Cursor F), readToken fuel (.start k attrs) d = (match pushStyle attrs d with
        | (.ok _, d) => readStartElement fuel k attrs d
        | (.err e, d) => (.err e, d)
        | (.panic e, d) => (.panic e, d)
        | (.diverge, d) => (.diverge, d)) := by
      intro k attrs d
      rw [readToken, SM.bind_run]
      rcases pushStyle attrs d with ⟨r, d'⟩
      cases r <;> rfl
    rcases pushStyle_both (B := B) hT hs with ⟨h1, h2⟩ | ⟨cA, stA, hRA, h1, h2⟩
    · rw [e1, e1, h1]
      rw [h1] at h2
      generalize pushStyle (A ++ B) c = x at h2 ⊢
      obtain ⟨r, d⟩ := x
      cases r with
      | ok u => exact absurd rfl (h2 u)
      | err e => rfl
      | panic e => rfl
      | diverge => rfl
    -- the start of the group
    have hstart : readToken fuel (.start "g".toList A) c = (.ok (), cA.restack (stA :: top :: rest)) := by
      rw [e1, h1]
      dsimp only
      unfold readStartElement
      dsimp only
      have hdA : (cA.restack (stA :: top :: rest)).inDefs = false := by
        show cA.inDefs = false
        rw [hRA.eq]; exact hdc
      rw [if_neg (by rintro ⟨h, -⟩; rw [hdA] at h; cases h)]
      have : drawFuncs fuel (useF fuel) "g".toList = some fun _ => (pure () : CM F Unit) := rfl
      rw [this]
      dsimp only
      rw [SM.pure_run]
      dsimp only
      have he : ∀ d : Cursor F, d.pc.path = [] → emitPath d = (.ok (), d) := by intro d h; unfold emitPath; rw [h]
      rw [he (cA.restack (stA :: top :: rest)) (by show cA.pc.path = []; rw [hRA.eq]; exact hp)]
    have hj1 := tidyRest_step hj (.start ..) hstart
    rw [hstart]
    dsimp only
    rw [readTokens_cons, SM.bind_run]
    rcases h2 with ⟨h2, h3⟩ | ⟨s, st, hRs, h2, h3⟩
    · rw [e1, e1, h3]
      generalize pushStyle (A ++ B) c = x at h2 ⊢
      obtain ⟨r, d⟩ := x
      cases r with
      | ok u => exact absurd rfl (h2 u)
      | err e => rfl
      | panic e => rfl
      | diverge => rfl
    -- the start of the element
    obtain ⟨s0, hs0⟩ : ∃ s0 : Cursor F, s0 = s.restack [st] := ⟨_, rfl⟩
    have x1 : s.restack (st :: stA :: top :: rest) = s0.ext (stA :: top :: rest) := by rw [hs0]; rfl
    have x2 : s.restack (st :: top :: rest) = s0.ext (top :: rest) := by rw [hs0]; rfl
    rw [x1] at h2
    rw [x2] at h3
    have hd0 : s0.inDefs = false := by
      rw [hs0]
      show s.inDefs = false
      rw [hRs.eq]
      show cA.inDefs = false
      rw [hRA.eq]; exact hdc
    have hg0 : GradOK s0 := by
      rw [hs0]
      show GradOK s
      exact gradOK_styleR hRs (gradOK_styleR hRA hj.inv.grad)
    have hns := readStart_nostack (fuel := fuel) hnu B hg0 (by rw [hs0]; exact List.cons_ne_nil _ _)
    have k1 := readStart_above (R := stA :: top :: rest) fuel n.toList B s0 hns
    have k2 := readStart_above (R := top :: rest) fuel n.toList B s0 hns
    have t1 : readToken fuel (.start n.toList B) (cA.restack (stA :: top :: rest)) =
        ((readStartElement fuel n.toList B s0).1, (readStartElement fuel n.toList B s0).2.ext (stA :: top :: rest)) := by
      rw [e1, h2]; exact k1
    have t2 : readToken fuel (.start n.toList (A ++ B)) c =
        ((readStartElement fuel n.toList B s0).1, (readStartElement fuel n.toList B s0).2.ext (top :: rest)) := by
      rw [e1, h3]
      dsimp only
      rw [readStart_skip hn hA B (show (s0.ext (top :: rest)).inDefs = false from hd0)]
      exact k2
    rw [t1, t2]
    generalize readStartElement fuel n.toList B s0 = x at t1 t2 ⊢
    obtain ⟨r, s1⟩ := x
    cases r with
    | err e => rfl
    | panic e => rfl
    | diverge => rfl
    | ok u =>
      dsimp only at t1 t2 ⊢
      have hj2 := tidyRest_step hj1 (.start ..) t1
      have hR : (stA :: top :: rest).length = (⟨n.toList, B⟩ :: ⟨"g".toList, A⟩ :: ch : List Elem).length := by
        have := hj.tidy.stack
        rw [hs] at this
        simp only [List.length_cons] at this ⊢
        omega
      have hs1 : ∃ t, s1.styleStack = [t] := by
        have := hj2.tidy.stack
        rw [show (s1.ext (stA :: top :: rest)).styleStack = s1.styleStack ++ stA :: top :: rest from rfl, List.length_append, hR] at this
        exact List.length_eq_one_iff.1 (by omega)
      obtain ⟨t, hs1⟩ := hs1
      obtain ⟨r, d, hrun, hok⟩ := group_body (fuel := fuel) hR hs1 hj2 hb
      rw [readTokens_append, readTokens_append, SM.bind_run, SM.bind_run, hrun, hrun]
      cases r with
      | err e => rfl
      | panic e => rfl
      | diverge => rfl
      | ok u =>
        dsimp only
        obtain ⟨hd1, hdd⟩ := hok rfl
        rw [inside_tag_ne "defs" hnd', inside_tag_ne "defs" (by decide), hd] at hdd
        rw [readTokens_cons, readTokens_cons, SM.bind_run, SM.bind_run,
          readEnd_drawn hn (c := d.ext (stA :: top :: rest)) (t := t) (R := stA :: top :: rest) (by show d.styleStack ++ _ = _; rw [hd1]; rfl) hdd,
          readEnd_drawn hn (c := d.ext (top :: rest)) (t := t) (R := top :: rest) (by show d.styleStack ++ _ = _; rw [hd1]; rfl) hdd]
        dsimp only
        rw [readTokens_cons, SM.bind_run, readEnd_drawn (n := "g") (by decide) (c := (d.ext (stA :: top :: rest)).restack (stA :: top :: rest)) (t := stA) (R := top :: rest) rfl hdd]
        rfl

end Generic

section Example

attribute [local instance] asciiEnv
attribute [local instance] dummyLibm

/-- `fill="red" opacity=".5" style="stroke-width:3"`. -/
def collapseGroup : List Attr := attrsOf [("fill", "red"), ("opacity", ".5"), ("style", "stroke-width:3")]

/-- `width="2" height="3" fill="blue" transform="scale(2)"`. -/
def collapseRect : List Attr := attrsOf [("width", "2"), ("height", "3"), ("fill", "blue"), ("transform", "scale(2)")]

/-- The group with the rectangle in it, or the rectangle alone. -/
def collapseDoc (grouped : Bool) (A B : List Attr) : List Token :=
  [.start "svg".toList []] ++ if grouped then .start "g".toList A :: .start "rect".toList B :: ([] ++ .stop "rect".toList :: .stop "g".toList :: [.stop "svg".toList])
  else .start "rect".toList (A ++ B) :: ([] ++ .stop "rect".toList :: [.stop "svg".toList])

set_option maxRecDepth 100000 in
/-- The hypotheses hold, and a path is drawn. -/
theorem collapse_example : parse (F := F64) 9 .strict (collapseDoc true collapseGroup collapseRect) .eof =
      parse 9 .strict (collapseDoc false collapseGroup collapseRect) .eof ∧
    (match parse (F := F64) 9 .strict (collapseDoc true collapseGroup collapseRect) .eof with
      | .done (some s) none [] => decide (s.svgPaths.map (fun p => p.style.fillerColor) = [some (.plain ⟨0, 0, 255, 255⟩)])
      | _ => false) = true := by
  refine ⟨C93_collapse_partial (F := F64) (n := "rect") (pre := [.start "svg".toList []]) (body := []) (by decide)
    ⟨by decide +kernel, by decide +kernel, .inr (by decide +kernel)⟩ rfl (by decide) (by decide +kernel) rfl (by decide +kernel)
    (.inl (by decide +kernel)), by decide +kernel⟩

set_option maxRecDepth 100000 in
/-- At most one `transform` is needed: of two on one element the second counts, those of a group and of an element in it are combined. -/
theorem collapse_transform_false :
    parse (F := F64) 9 .strict (collapseDoc true (attrsOf [("transform", "scale(2)")]) collapseRect) .eof ≠
    parse 9 .strict (collapseDoc false (attrsOf [("transform", "scale(2)")]) collapseRect) .eof := by
  decide +kernel

end Example

end GoSvg
