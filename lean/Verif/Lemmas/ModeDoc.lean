import Verif.Lemmas.ModeSim

/-! Two parses that differ in the error mode. -/

set_option linter.unusedSectionVars false

namespace GoSvg

variable {F : Type} [GoFloat F] [GoEnv]

open SM (get modify throw lift panic diverge forEach)

variable {l0 : List Msg} {α β : Type}

theorem handleError_ref (m : Msg) : Ref (EC l0) SC (handleError m : CM F Unit) (handleError m) := by
  unfold handleError
  refine ⟨fun c => ?_, fun c d hE => ?_⟩
  · split
    · rfl
    · split <;> rfl
  · obtain ⟨k, l, rfl, hk, hl⟩ := hE
    by_cases h1 : c.pc.errorMode = .strict
    · rw [if_pos h1]; exact .inl ⟨h1, fun _ h => by cases h⟩
    · right
      rw [if_neg h1, if_neg (show ¬ (c.ml k l).pc.errorMode = .strict from hk)]
      have h1' : ∀ l', c.pc.errorMode = .strict → l' = l0 := fun _ h => absurd h h1
      by_cases h2 : c.pc.errorMode = .warn
      · rw [if_pos h2]
        by_cases h3 : k = .warn
        · rw [if_pos (show (c.ml k l).pc.errorMode = .warn from h3)]; exact ⟨rfl, k, _, rfl, hk, h1' _⟩
        · rw [if_neg (show ¬ (c.ml k l).pc.errorMode = .warn from h3)]; exact ⟨rfl, k, l, rfl, hk, h1' _⟩
      · rw [if_neg h2]
        by_cases h3 : k = .warn
        · rw [if_pos (show (c.ml k l).pc.errorMode = .warn from h3)]; exact ⟨rfl, k, _, rfl, hk, h1' _⟩
        · rw [if_neg (show ¬ (c.ml k l).pc.errorMode = .warn from h3)]; exact ⟨rfl, k, l, rfl, hk, h1' _⟩

/-! ### Styles -/

theorem transformLoop_blind : ∀ (items : List Str) (m1 : Matrix2D F), Blind (transformLoop m1 items)
  | [], m1 => blind_pure _
  | item :: rest, m1 => by
    rw [transformLoop]
    refine blind_ite (transformLoop_blind rest m1) ?_
    split
    · refine blind_ite (blind_throw _) (blind_bind (blind_onPath (getPoints_blind _)) fun _ => ?_)
      exact blind_get (fun c => blind_bind (blind_lift _) fun m => transformLoop_blind rest m) fun c k l => rfl
    · exact blind_throw _

theorem parseTransform_blind (v : Str) : Blind (parseTransform v : CM F (Matrix2D F)) := by
  unfold parseTransform
  refine blind_get (fun c => ?_) fun c k l => rfl
  split
  · exact blind_panic _
  · exact transformLoop_blind _ _

theorem addMask_blind (st : PathStyle F) (id : Str) : Blind (addMask st id) := ⟨fun _ => rfl, fun _ _ _ => rfl⟩

theorem runEff_ref (st : PathStyle F) (v : Str) (e : Eff F) : Ref (EC l0) SC (runEff st v e) (runEff st v e) := by
  cases e with
  | set r => exact ref_lift r
  | warn m => exact ref_bind (handleError_ref m) fun _ => ref_pure _
  | transform => exact blind_ref (blind_bind (parseTransform_blind v) fun _ => blind_pure _)
  | mask => exact blind_ref (blind_bind (blind_lift _) fun id => addMask_blind st id)

theorem readStyleAttr_ref (st : PathStyle F) (k v : Str) : Ref (EC l0) SC (readStyleAttr st k v) (readStyleAttr st k v) := by
  refine ⟨fun c => ?_, fun c d hE => ?_⟩
  · rw [readStyleAttr_eff]; exact (runEff_ref (l0 := l0) st v _).keep c
  · have hE' := hE
    obtain ⟨m, l, rfl, -, -⟩ := hE
    rw [readStyleAttr_eff, readStyleAttr_eff]
    exact (runEff_ref st v (styleEff c.svg st k v)).run c _ hE'

theorem pairsLoop_ref : ∀ (ps : List Str) (st : PathStyle F), Ref (EC l0) SC (pairsLoop st ps) (pairsLoop st ps)
  | [], st => ref_pure _
  | p :: ps, st => by
    rw [pairsLoop]
    split
    · exact ref_bind (readStyleAttr_ref st _ _) fun st => pairsLoop_ref ps st
    · exact pairsLoop_ref ps st

theorem pushStyle_ref (attrs : List Attr) : Ref (EC l0) SC (pushStyle attrs : CM F Unit) (pushStyle attrs) := by
  have key : ∀ ss : List (PathStyle F), Ref (EC l0) SC
      (match ss with
        | [] => panic .styleStack
        | top :: _ => do
          let st ← pairsLoop top (stylePairs attrs)
          modify fun c => { c with styleStack := st :: c.styleStack } : CM F Unit)
      (match ss with
        | [] => panic .styleStack
        | top :: _ => do
          let st ← pairsLoop top (stylePairs attrs)
          modify fun c => { c with styleStack := st :: c.styleStack }) := by
    intro ss
    cases ss with
    | nil => exact ref_panic _
    | cons top rest =>
      exact ref_bind (pairsLoop_ref _ top) fun st => blind_ref (blind_modify (fun _ => rfl) fun _ _ _ => rfl)
  unfold pushStyle
  refine ref_get (fun c => (key c.styleStack).keep c) fun c d hE => ?_
  obtain ⟨m, l, rfl, -, -⟩ := hE
  exact key c.styleStack

theorem popStyle_blind : Blind (popStyle : CM F Unit) := by
  unfold popStyle
  refine ⟨fun c => ?_, fun c k l => ?_⟩
  · split <;> rfl
  · show (match c.styleStack with
      | [] => (Res.panic Site.styleStack, c.ml k l)
      | _ :: rest => (Res.ok (), { c.ml k l with styleStack := rest })) = _
    cases c.styleStack <;> rfl

/-! ### Elements -/

theorem svgBox_blind (wh : F × F) (v : Str) : Blind (svgBox wh v) := by
  obtain ⟨b, ps, h⟩ := getPoints_frame (F := F) v
  refine ⟨fun c => ?_, fun c k l => ?_⟩ <;> unfold svgBox <;> simp only [h]
  · split
    · cases b <;> rfl
    · rfl
  · rcases ps with _ | ⟨x, _ | ⟨y, _ | ⟨w, _ | ⟨h, _ | ⟨z, zs⟩⟩⟩⟩⟩ <;> cases b <;> rfl

theorem svgF_blind (attrs : List Attr) : Blind (svgF attrs : CM F Unit) := by
  unfold svgF
  refine blind_bind (blind_modify (fun _ => rfl) fun _ _ _ => rfl) fun _ => blind_bind (blind_attrLoop (fun b a => ?_) _ _) fun wh =>
    blind_modify (fun _ => rfl) fun _ _ _ => rfl
  unfold svgAttr
  refine blind_ite (svgBox_blind _ _) (blind_ite ?_ (blind_ite ?_ (blind_pure _)))
  · exact blind_bind (blind_modify (fun _ => rfl) fun _ _ _ => rfl) fun _ => blind_bind (blind_lift _) fun _ => blind_pure _
  · exact blind_bind (blind_modify (fun _ => rfl) fun _ _ _ => rfl) fun _ => blind_bind (blind_lift _) fun _ => blind_pure _

theorem rectF_blind (fuel : Nat) (attrs : List Attr) : Blind (rectF fuel attrs : CM F Unit) := by
  unfold rectF
  refine blind_get (fun c => blind_bind (blind_lift _) fun v => ?_) fun c k l => rfl
  split
  · exact blind_diverge
  · exact blind_modify (fun _ => rfl) fun _ _ _ => rfl

theorem maskF_blind (attrs : List Attr) : Blind (maskF attrs : CM F Unit) := by
  unfold maskF
  exact blind_get (fun c => blind_bind (blind_lift _) fun v => blind_modify (fun _ => rfl) fun _ _ _ => rfl) fun c k l => rfl

theorem circleF_blind (attrs : List Attr) : Blind (circleF attrs : CM F Unit) := by
  unfold circleF
  exact blind_get (fun c => blind_bind (blind_lift _) fun v => blind_ite (blind_pure _)
    (blind_modify (fun _ => rfl) fun _ _ _ => rfl)) fun c k l => rfl

theorem lineF_blind (attrs : List Attr) : Blind (lineF attrs : CM F Unit) := by
  unfold lineF
  exact blind_get (fun c => blind_bind (blind_lift _) fun v => blind_modify (fun _ => rfl) fun _ _ _ => rfl) fun c k l => rfl

theorem polyAttr_blind (u : Unit) (a : Attr) : Blind (polyAttr u a : CM F Unit) := by
  have h := getPoints_blind (F := F) a.value
  unfold polyAttr
  refine blind_ite ⟨fun c => ?_, fun c k l => ?_⟩ (blind_pure _)
  · have hm := h.mode c.pc
    show (match getPoints a.value c.pc with
      | (r, pc) => if pc.points.length % 2 ≠ 0 then (Res.err Err.oddPoints, ({ c with pc := pc } : Cursor F)) else (r, { c with pc := pc })).2.pc.errorMode = _
    rcases hr : getPoints a.value c.pc with ⟨r, pc⟩
    rw [hr] at hm
    dsimp only at hm ⊢
    split <;> exact hm
  · have hr := h.run c.pc k l
    show (match getPoints a.value (c.pc.ml k l) with
      | (r, pc) => if pc.points.length % 2 ≠ 0 then (Res.err Err.oddPoints, ({ c with pc := pc } : Cursor F)) else (r, { c with pc := pc })) =
      (fun x : Res Unit × Cursor F => (x.1, x.2.ml k l)) (match getPoints a.value c.pc with
      | (r, pc) => if pc.points.length % 2 ≠ 0 then (Res.err Err.oddPoints, ({ c with pc := pc } : Cursor F)) else (r, { c with pc := pc }))
    rw [hr]
    rcases getPoints a.value c.pc with ⟨r, pc⟩
    dsimp only
    rw [show (pc.ml k l).points = pc.points from rfl]
    split <;> rfl

theorem polyDraw_ml (p : PathCursor F) (k : ErrorMode) (l : List Msg) : polyDraw (p.ml k l) = (polyDraw p).ml k l := by
  unfold polyDraw
  rw [lineOps_ml, show (p.ml k l).points = p.points from rfl]
  split <;> rfl

theorem polylineF_blind (attrs : List Attr) : Blind (polylineF attrs : CM F Unit) := by
  unfold polylineF
  refine blind_bind (blind_attrLoop polyAttr_blind _ _) fun _ => blind_modify (fun c => (polyDraw_frame c.pc).2.2.1) fun c k l => ?_
  show ({ c with pc := polyDraw (c.pc.ml k l) } : Cursor F) = _
  rw [polyDraw_ml]
  rfl

theorem polygonF_blind (attrs : List Attr) : Blind (polygonF attrs : CM F Unit) := by
  have h := polylineF_blind (F := F) attrs
  unfold polygonF
  refine ⟨fun c => ?_, fun c k l => ?_⟩
  · have hm := h.mode c
    rcases hr : polylineF attrs c with ⟨r, d⟩
    rw [hr] at hm
    have h' : (if d.pc.points.length > 4 then ({ d with pc := d.pc.addOps [.close] } : Cursor F) else d).pc.errorMode = d.pc.errorMode := by
      split <;> rfl
    cases r with
    | ok _ => exact h'.trans hm
    | err _ => exact h'.trans hm
    | panic _ => exact hm
    | diverge => exact hm
  · rw [h.run c k l]
    rcases polylineF attrs c with ⟨r, d⟩
    have h' : (if (d.ml k l).pc.points.length > 4 then ({ d.ml k l with pc := (d.ml k l).pc.addOps [.close] } : Cursor F) else d.ml k l) =
        (if d.pc.points.length > 4 then ({ d with pc := d.pc.addOps [.close] } : Cursor F) else d).ml k l := by
      rw [show (d.ml k l).pc.points = d.pc.points from rfl]
      split <;> rfl
    cases r with
    | ok _ => exact congrArg (Prod.mk _) h'
    | err _ => exact congrArg (Prod.mk _) h'
    | panic _ => rfl
    | diverge => rfl

theorem pathF_ref (attrs : List Attr) : Ref (EC l0) SC (pathF attrs : CM F Unit) (pathF attrs) := by
  refine ref_attrLoop (fun u a => ?_) _ _
  unfold pathAttr
  exact ref_ite (ref_onPath (compilePath_ref _)) (ref_pure _)

theorem modifyGrad_blind (f : Gradient F → Gradient F) : Blind (modifyGrad f) := by
  unfold modifyGrad
  refine ⟨fun c => ?_, fun c k l => ?_⟩
  · split <;> rfl
  · rw [show (c.ml k l).grad = c.grad from rfl]
    cases c.grad <;> rfl

theorem setGradID_blind (id : Str) : Blind (setGradID id : CM F Unit) := by
  unfold setGradID
  refine ⟨fun c => ?_, fun c k l => ?_⟩
  · split <;> rfl
  · rw [show (c.ml k l).grad = c.grad from rfl]
    cases c.grad <;> rfl

theorem currentGrad_blind : Blind (currentGrad : CM F (Gradient F)) := by
  unfold currentGrad
  refine ⟨fun c => ?_, fun c k l => ?_⟩
  · split <;> rfl
  · show (match c.grad.bind fun addr => c.svg.gradHeap[addr]? with
      | none => _
      | some g => _) = _
    cases c.grad.bind fun addr => c.svg.gradHeap[addr]? <;> rfl

theorem readGradAttr_blind (a : Attr) : Blind (readGradAttr a : CM F Unit) := by
  unfold readGradAttr
  have hm : ∀ f : Gradient F → Gradient F, Blind (modifyGrad f) := modifyGrad_blind
  refine blind_ite ?_ (blind_ite ?_ (blind_ite ?_ (blind_pure _)))
  · exact blind_bind (parseTransform_blind _) fun _ => hm _
  · exact blind_ite (hm _) (blind_ite (hm _) (blind_pure _))
  · exact blind_ite (hm _) (blind_ite (hm _) (blind_ite (hm _) (blind_pure _)))

theorem newGrad_blind : Blind (newGrad : CM F Unit) := blind_modify (fun _ => rfl) fun _ _ _ => rfl

theorem linAttr_blind (d : LinStrs) (a : Attr) : Blind (linAttr d a : CM F LinStrs) := by
  unfold linAttr
  have hp : ∀ d : LinStrs, Blind (pure d : CM F LinStrs) := fun d => blind_pure d
  exact blind_ite (blind_bind (setGradID_blind _) fun _ => hp _) (blind_ite (hp _) (blind_ite (hp _) (blind_ite (hp _)
    (blind_ite (hp _) (blind_bind (readGradAttr_blind _) fun _ => hp _)))))

theorem radAttr_blind (d : RadStrs) (a : Attr) : Blind (radAttr d a : CM F RadStrs) := by
  unfold radAttr
  have hp : ∀ d : RadStrs, Blind (pure d : CM F RadStrs) := fun d => blind_pure d
  exact blind_ite (blind_bind (setGradID_blind _) fun _ => hp _) (blind_ite (hp _) (blind_ite (hp _) (blind_ite (hp _)
    (blind_ite (hp _) (blind_ite (hp _) (blind_ite (hp _) (blind_bind (readGradAttr_blind _) fun _ => hp _)))))))

theorem linearGradientF_blind (attrs : List Attr) : Blind (linearGradientF attrs : CM F Unit) := by
  unfold linearGradientF
  have hl : ∀ r : Res F, Blind (lift r : CM F F) := fun r => blind_lift r
  exact blind_bind newGrad_blind fun _ => blind_bind (blind_attrLoop linAttr_blind _ _) fun _ =>
    blind_bind currentGrad_blind fun _ => blind_bind (hl _) fun _ => blind_bind (hl _) fun _ =>
    blind_bind (hl _) fun _ => blind_bind (hl _) fun _ => modifyGrad_blind _

theorem radialGradientF_blind (attrs : List Attr) : Blind (radialGradientF attrs : CM F Unit) := by
  unfold radialGradientF
  have hl : ∀ r : Res F, Blind (lift r : CM F F) := fun r => blind_lift r
  exact blind_bind newGrad_blind fun _ => blind_bind (blind_attrLoop radAttr_blind _ _) fun _ =>
    blind_bind currentGrad_blind fun _ => blind_bind (hl _) fun _ => blind_bind (hl _) fun _ =>
    blind_bind (hl _) fun _ => blind_bind (hl _) fun _ => blind_bind (hl _) fun _ =>
    blind_bind (hl _) fun _ => modifyGrad_blind _

theorem stopF_blind (attrs : List Attr) : Blind (stopF attrs : CM F Unit) := by
  unfold stopF
  exact blind_get (fun c => blind_ite (blind_bind (blind_lift _) fun _ => modifyGrad_blind _) (blind_pure _)) fun c k l => rfl

theorem drawFuncs_ref {fuel : Nat} {use : List Attr → CM F Unit} (hu : ∀ attrs, Ref (EC l0) SC (use attrs) (use attrs))
    {tag : Str} {df : List Attr → CM F Unit} (h : drawFuncs fuel use tag = some df) (attrs : List Attr) :
    Ref (EC l0) SC (df attrs) (df attrs) := by
  unfold drawFuncs at h
  by_cases h1 : tag = "svg".toList
  · rw [if_pos h1] at h; cases h; exact blind_ref (svgF_blind attrs)
  rw [if_neg h1] at h
  by_cases h1 : tag = "g".toList
  · rw [if_pos h1] at h; cases h; exact ref_pure _
  rw [if_neg h1] at h
  by_cases h1 : tag = "line".toList
  · rw [if_pos h1] at h; cases h; exact blind_ref (lineF_blind attrs)
  rw [if_neg h1] at h
  by_cases h1 : tag = "stop".toList
  · rw [if_pos h1] at h; cases h; exact blind_ref (stopF_blind attrs)
  rw [if_neg h1] at h
  by_cases h1 : tag = "rect".toList
  · rw [if_pos h1] at h; cases h; exact blind_ref (rectF_blind fuel attrs)
  rw [if_neg h1] at h
  by_cases h1 : tag = "circle".toList
  · rw [if_pos h1] at h; cases h; exact blind_ref (circleF_blind attrs)
  rw [if_neg h1] at h
  by_cases h1 : tag = "ellipse".toList
  · rw [if_pos h1] at h; cases h; exact blind_ref (circleF_blind attrs)
  rw [if_neg h1] at h
  by_cases h1 : tag = "polyline".toList
  · rw [if_pos h1] at h; cases h; exact blind_ref (polylineF_blind attrs)
  rw [if_neg h1] at h
  by_cases h1 : tag = "polygon".toList
  · rw [if_pos h1] at h; cases h; exact blind_ref (polygonF_blind attrs)
  rw [if_neg h1] at h
  by_cases h1 : tag = "path".toList
  · rw [if_pos h1] at h; cases h; exact pathF_ref attrs
  rw [if_neg h1] at h
  by_cases h1 : tag = "desc".toList
  · rw [if_pos h1] at h; cases h; exact blind_ref (blind_modify (fun _ => rfl) fun _ _ _ => rfl)
  rw [if_neg h1] at h
  by_cases h1 : tag = "defs".toList
  · rw [if_pos h1] at h; cases h; exact blind_ref (blind_modify (fun _ => rfl) fun _ _ _ => rfl)
  rw [if_neg h1] at h
  by_cases h1 : tag = "title".toList
  · rw [if_pos h1] at h; cases h; exact blind_ref (blind_modify (fun _ => rfl) fun _ _ _ => rfl)
  rw [if_neg h1] at h
  by_cases h1 : tag = "linearGradient".toList
  · rw [if_pos h1] at h; cases h; exact blind_ref (linearGradientF_blind attrs)
  rw [if_neg h1] at h
  by_cases h1 : tag = "radialGradient".toList
  · rw [if_pos h1] at h; cases h; exact blind_ref (radialGradientF_blind attrs)
  rw [if_neg h1] at h
  by_cases h1 : tag = "mask".toList
  · rw [if_pos h1] at h; cases h; exact blind_ref (maskF_blind attrs)
  rw [if_neg h1] at h
  by_cases h1 : tag = "use".toList
  · rw [if_pos h1] at h; cases h; exact hu attrs
  rw [if_neg h1] at h
  cases h

theorem useLoop_ref {draw : Str → Option (List Attr → CM F Unit)}
    (hd : ∀ tag df, draw tag = some df → ∀ attrs, Ref (EC l0) SC (df attrs) (df attrs)) :
    ∀ ds, Ref (EC l0) SC (useLoop draw ds) (useLoop draw ds)
  | [] => ref_pure _
  | d :: ds => by
    rw [useLoop]
    refine ref_ite (ref_bind (blind_ref popStyle_blind) fun _ => useLoop_ref hd ds) ?_
    refine ref_bind (pushStyle_ref _) fun _ => ?_
    cases hdr : draw d.tag with
    | none => exact handleError_ref _
    | some df =>
      refine ref_bind (hd _ _ hdr _) fun _ => ?_
      exact ref_ite (ref_bind (blind_ref popStyle_blind) fun _ => useLoop_ref hd ds) (useLoop_ref hd ds)

theorem useBody_ref {draw : Str → Option (List Attr → CM F Unit)}
    (hd : ∀ tag df, draw tag = some df → ∀ attrs, Ref (EC l0) SC (df attrs) (df attrs)) (href : Str) :
    Ref (EC l0) SC (useBody draw href) (useBody draw href) := by
  unfold useBody
  have key : ∀ o : Option (List Definition), Ref (EC l0) SC
      (match o with
        | none => throw .useNotFound
        | some defs => useLoop draw defs : CM F Unit)
      (match o with
        | none => throw .useNotFound
        | some defs => useLoop draw defs : CM F Unit) := by
    intro o
    cases o with
    | none => exact ref_throw _
    | some ds => exact useLoop_ref hd ds
  have h' : ∀ P : CM F Unit, P = (match href with
      | '#' :: id => do
        let c ← get
        match c.svg.defs.find id with
        | none => throw .useNotFound
        | some defs => useLoop draw defs
      | _ => throw .useNotID : CM F Unit) → Ref (EC l0) SC P P := by
    intro P hP
    rw [hP]
    split
    · refine ref_get (fun c => (key _).keep c) fun c d hE => ?_
      obtain ⟨m, l, rfl, -, -⟩ := hE
      exact key _
    · exact ref_throw _
  exact ref_ite (ref_bind (ref_throw _) fun _ => h' _ rfl) (h' _ rfl)

theorem withOffset_ref (x y : F) {body : CM F Unit} (h : Ref (EC l0) SC body body) :
    Ref (EC l0) SC (withOffset x y body) (withOffset x y body) := by
  unfold withOffset
  refine ⟨fun c => h.keep { c with pc := { c.pc with curX := x, curY := y } }, fun c d hE => ?_⟩
  obtain ⟨k, l, rfl, hk, hl⟩ := hE
  rcases h.run { c with pc := { c.pc with curX := x, curY := y } } (({ c with pc := { c.pc with curX := x, curY := y } } : Cursor F).ml k l)
    ⟨k, l, rfl, hk, hl⟩ with h | ⟨h, k', l', h1, h2, h3⟩
  · exact .inl h
  · refine .inr ⟨h, k', l', ?_, h2, h3⟩
    show ({ (body (({ c with pc := { c.pc with curX := x, curY := y } } : Cursor F).ml k l)).2 with
      pc := { (body (({ c with pc := { c.pc with curX := x, curY := y } } : Cursor F).ml k l)).2.pc with curX := num 0, curY := num 0 } } : Cursor F) = _
    rw [h1]
    rfl

theorem useF_ref : ∀ (fuel : Nat) (attrs : List Attr), Ref (EC l0) SC (useF fuel attrs : CM F Unit) (useF fuel attrs)
  | 0, _ => ref_diverge
  | fuel + 1, attrs => by
    rw [useF]
    have key : ∀ vb : Bounds F, Ref (EC l0) SC
        (do let v ← lift (Res.loop (useAttr vb) ⟨[], num 0, num 0⟩ attrs)
            withOffset v.x v.y (useBody (drawFuncs fuel (useF fuel)) v.href) : CM F Unit)
        (do let v ← lift (Res.loop (useAttr vb) ⟨[], num 0, num 0⟩ attrs)
            withOffset v.x v.y (useBody (drawFuncs fuel (useF fuel)) v.href) : CM F Unit) := fun vb =>
      ref_bind (ref_lift _) fun v => withOffset_ref _ _ (useBody_ref (fun tag df hd attrs =>
        drawFuncs_ref (useF_ref fuel) hd attrs) _)
    refine ref_get (fun c => (key _).keep c) fun c d hE => ?_
    obtain ⟨m, l, rfl, -, -⟩ := hE
    exact key _

/-! ### Tokens -/

theorem emitPath_blind : Blind (emitPath : CM F Unit) := by
  refine ⟨fun c => ?_, fun c k l => ?_⟩
  · rcases emitPath_cases c with ⟨c', h, hE⟩ | ⟨h, -⟩
    · rw [h]; cases hE <;> rfl
    · rw [h]
  · obtain ⟨pc, svg, ss, gr, it, id, ig, df, im, cd, mk⟩ := c
    obtain ⟨path, x, y, cx, cy, kx, ky, sx, sy, ps, lk, em, ip, lg⟩ := pc
    cases path <;> cases im <;> cases mk <;> cases ss <;> rfl

/-- Running an element function and then storing the path, whatever it returned. -/
def runEmit (m : CM F Unit) : CM F Unit := fun c =>
  match m c with
  | (.panic s, c) => (.panic s, c)
  | (.diverge, c) => (.diverge, c)
  | (r, c) => match emitPath c with
    | (.ok (), c) => (r, c)
    | (r', c) => (r', c)

theorem runEmit_run (m : CM F Unit) (c : Cursor F) : runEmit m c =
    match m c with
    | (.panic s, c) => (.panic s, c)
    | (.diverge, c) => (.diverge, c)
    | (r, c) => match emitPath c with
      | (.ok (), c) => (r, c)
      | (r', c) => (r', c) := rfl

theorem run_emit_ref {m : CM F Unit} (h : Ref (EC l0) SC m m) : Ref (EC l0) SC (runEmit m) (runEmit m) := by
  have hb := emitPath_blind (F := F)
  have he : ∀ c, (emitPath c : Res Unit × Cursor F).1 = .ok () ∨ (emitPath c : Res Unit × Cursor F).1 = .panic .styleStack := by
    intro c
    rcases emitPath_cases c with ⟨c', h, -⟩ | ⟨h, -⟩
    · exact .inl (by rw [h])
    · exact .inr (by rw [h])
  refine ⟨fun c => ?_, fun c d hE => ?_⟩
  · have hk := h.keep c
    rw [runEmit_run]
    rcases hm : m c with ⟨r, c'⟩
    rw [hm] at hk
    have hk' : ∀ r', SC (match emitPath c' with
        | (.ok (), c) => ((r' : Res Unit), c)
        | (r', c) => (r', c)).2 ↔ SC c := by
      intro r'
      have := hb.mode c'
      rcases hr : emitPath c' with ⟨q, e⟩
      rw [hr] at this
      dsimp only at hk this
      rw [← hk]
      simp only [SC, ← this]
      cases q <;> rfl
    cases r with
    | ok _ => exact hk' _
    | err _ => exact hk' _
    | panic _ => exact hk
    | diverge => exact hk
  · have hr := h.run c d hE
    rw [runEmit_run, runEmit_run]
    rcases hm : m c with ⟨r, c'⟩
    rcases hn : m d with ⟨r', d'⟩
    rw [hm, hn] at hr
    rcases hr with ⟨hs, hne⟩ | ⟨h1, k, l, h2, hk, hl⟩
    · refine .inl ⟨hs, fun a ha => ?_⟩
      cases r with
      | ok b => exact hne b rfl
      | err e =>
        have := he c'
        rcases hr : emitPath c' with ⟨q, e⟩
        rw [hr] at this
        dsimp only at this ha
        rw [hr] at ha
        rcases this with rfl | rfl <;> cases ha
      | panic e => cases ha
      | diverge => cases ha
    · right
      dsimp only at h1 h2 hl
      subst h1 h2
      have hb' : ∀ r' : Res Unit, ∃ r'', (match emitPath c' with
            | (.ok (), c) => (r', c)
            | (r', c) => (r', c)) = (r'', (emitPath c').2) ∧
          (match emitPath (c'.ml k l) with
            | (.ok (), c) => (r', c)
            | (r', c) => (r', c)) = (r'', (emitPath c').2.ml k l) := by
        intro r'
        rw [hb.run c' k l]
        have := he c'
        rcases hq : emitPath c' with ⟨q, e⟩
        rw [hq] at this
        dsimp only at this
        rcases this with rfl | rfl
        · exact ⟨r', rfl, rfl⟩
        · exact ⟨_, rfl, rfl⟩
      have fin : ∀ r', (match emitPath c' with
            | (.ok (), c) => ((r' : Res Unit), c)
            | (r', c) => (r', c)).1 = (match emitPath (c'.ml k l) with
            | (.ok (), c) => (r', c)
            | (r', c) => (r', c)).1 ∧ EC l0 (match emitPath c' with
            | (.ok (), c) => (r', c)
            | (r', c) => (r', c)).2 (match emitPath (c'.ml k l) with
            | (.ok (), c) => (r', c)
            | (r', c) => (r', c)).2 := by
        intro r'
        obtain ⟨r'', e1, e2⟩ := hb' r'
        rw [e1, e2]
        exact ⟨rfl, k, l, rfl, hk, fun h => hl (by rwa [hb.mode c'] at h)⟩
      cases r with
      | ok _ => exact fin _
      | err _ => exact fin _
      | panic _ => exact ⟨rfl, k, l, rfl, hk, hl⟩
      | diverge => exact ⟨rfl, k, l, rfl, hk, hl⟩

theorem recordDef_ml (name : Str) (attrs : List Attr) (c : Cursor F) (k : ErrorMode) (l : List Msg) :
    recordDef name attrs (c.ml k l) = (recordDef name attrs c).ml k l ∧
    (recordDef name attrs c).pc.errorMode = c.pc.errorMode := by
  unfold recordDef
  rw [show (c.ml k l).currentDef = c.currentDef from rfl]
  cases c.currentDef with
  | nil => exact ⟨rfl, rfl⟩
  | cons d ds =>
    dsimp only
    by_cases h : lastID attrs ≠ []
    · rw [if_pos h, if_pos h]; exact ⟨rfl, rfl⟩
    · rw [if_neg h, if_neg h]; exact ⟨rfl, rfl⟩

theorem readStartElement_ref (fuel : Nat) (name : Str) (attrs : List Attr) :
    Ref (EC l0) SC (readStartElement fuel name attrs : CM F Unit) (readStartElement fuel name attrs) := by
  have key : ∀ b g : Bool, Ref (EC l0) SC
      (fun c => if b = true ∧ ¬ (name = "radialGradient".toList ∨ name = "linearGradient".toList ∨ g = true) then
          (.ok (), recordDef name attrs c)
        else match drawFuncs fuel (useF fuel) name with
          | none => handleError (.cannotProcess name) c
          | some df =>
            match df attrs c with
            | (.panic s, c) => (.panic s, c)
            | (.diverge, c) => (.diverge, c)
            | (r, c) => match emitPath c with
              | (.ok (), c) => (r, c)
              | (r', c) => (r', c) : CM F Unit)
      (fun c => if b = true ∧ ¬ (name = "radialGradient".toList ∨ name = "linearGradient".toList ∨ g = true) then
          (.ok (), recordDef name attrs c)
        else match drawFuncs fuel (useF fuel) name with
          | none => handleError (.cannotProcess name) c
          | some df =>
            match df attrs c with
            | (.panic s, c) => (.panic s, c)
            | (.diverge, c) => (.diverge, c)
            | (r, c) => match emitPath c with
              | (.ok (), c) => (r, c)
              | (r', c) => (r', c) : CM F Unit) := by
    intro b g
    by_cases h : b = true ∧ ¬ (name = "radialGradient".toList ∨ name = "linearGradient".toList ∨ g = true)
    · simp only [if_pos h]
      exact blind_ref (blind_modify (f := recordDef name attrs) (fun c => (recordDef_ml name attrs c 0 []).2) fun c k l => (recordDef_ml name attrs c k l).1)
    · simp only [if_neg h]
      cases hd : drawFuncs (F := F) fuel (useF fuel) name with
      | none => exact handleError_ref _
      | some df => exact run_emit_ref (drawFuncs_ref (useF_ref fuel) hd attrs)
  refine ⟨fun c => (key c.inDefs c.inGrad).keep c, fun c d hE => ?_⟩
  have hE' := hE
  obtain ⟨m, l, rfl, -, -⟩ := hE
  exact (key c.inDefs c.inGrad).run c _ hE'

theorem readEndElement_blind (name : Str) : Blind (readEndElement name : CM F Unit) := by
  unfold readEndElement
  refine blind_bind popStyle_blind fun _ => blind_modify (fun c => ?_) fun c k l => ?_
  · split
    · split <;> rfl
    · split
      · split <;> rfl
      · split
        · rfl
        · split
          · rfl
          · split
            · split <;> rfl
            · split <;> rfl
  · dsimp only
    rw [show (c.ml k l).inDefs = c.inDefs from rfl, show (c.ml k l).mask = c.mask from rfl,
      show (c.ml k l).currentDef = c.currentDef from rfl]
    by_cases h1 : name = "g".toList
    · rw [if_pos h1, if_pos h1]; split <;> rfl
    rw [if_neg h1, if_neg h1]
    by_cases h1 : name = "mask".toList
    · rw [if_pos h1, if_pos h1]; cases c.mask <;> rfl
    rw [if_neg h1, if_neg h1]
    by_cases h1 : name = "title".toList
    · rw [if_pos h1, if_pos h1]; rfl
    rw [if_neg h1, if_neg h1]
    by_cases h1 : name = "desc".toList
    · rw [if_pos h1, if_pos h1]; rfl
    rw [if_neg h1, if_neg h1]
    by_cases h1 : name = "defs".toList
    · rw [if_pos h1, if_pos h1]; cases c.currentDef <;> rfl
    rw [if_neg h1, if_neg h1]
    split <;> rfl

theorem readChars_blind (s : Str) : Blind (readChars s : CM F Unit) := by
  refine ⟨fun c => ?_, fun c k l => ?_⟩
  · unfold readChars
    dsimp only
    split
    · rfl
    · split <;> rfl
  · unfold readChars
    show (match (if c.inTitleText then appendLast c.svg.titles s else some c.svg.titles) with | none => _ | some titles => _) = _
    cases (if c.inTitleText then appendLast c.svg.titles s else some c.svg.titles) with
    | none => rfl
    | some t =>
      show (match (if c.inDescText then appendLast c.svg.descriptions s else some c.svg.descriptions) with | none => _ | some titles => _) = _
      dsimp only
      cases (if c.inDescText then appendLast c.svg.descriptions s else some c.svg.descriptions) <;> rfl

theorem readToken_ref (fuel : Nat) (t : Token) : Ref (EC l0) SC (readToken fuel t : CM F Unit) (readToken fuel t) := by
  cases t with
  | start name attrs => exact ref_bind (pushStyle_ref attrs) fun _ => readStartElement_ref fuel name attrs
  | stop name => exact blind_ref (readEndElement_blind name)
  | chars s => exact blind_ref (readChars_blind s)
  | other => exact ref_pure _

theorem readTokens_ref (fuel : Nat) : ∀ ts, Ref (EC l0) SC (readTokens fuel ts : CM F Unit) (readTokens fuel ts)
  | [] => ref_pure _
  | t :: ts => ref_bind (readToken_ref fuel t) fun _ => readTokens_ref fuel ts

end GoSvg
