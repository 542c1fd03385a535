import Verif.Lemmas.Defs

/-! What is collected plays no part in what the elements do. -/

set_option linter.unusedSectionVars false

namespace GoSvg

open Spec

variable {F : Type} [GoFloat F] [GoEnv]

open SM (get modify throw lift panic diverge forEach)

/-- Where paths and masks are collected. -/
structure Over (F : Type) where
  paths : List (SvgPath F)
  masks : GoMap (SvgMask F)
  inMask : Bool
  mask : Option (SvgMask F)

/-- The same cursor with another collection. -/
def Cursor.ov (o : Over F) (c : Cursor F) : Cursor F :=
  { c with svg := { c.svg with svgPaths := o.paths, svgMasks := o.masks }, inMask := o.inMask, mask := o.mask }

/-- A program that does not look at the collection and leaves it alone. -/
def Comm (o : Over F) {α : Type} (m : CM F α) : Prop := ∀ c, m (c.ov o) = ((m c).1, (m c).2.ov o)

variable {o : Over F} {α β : Type}

theorem comm_pure (a : α) : Comm o (pure a : CM F α) := fun _ => rfl
theorem comm_lift (a : Res α) : Comm o (lift a : CM F α) := fun _ => rfl
theorem comm_throw (a : Err) : Comm o (throw a : CM F α) := fun _ => rfl
theorem comm_panic (a : Site) : Comm o (panic a : CM F α) := fun _ => rfl
theorem comm_diverge : Comm o (diverge : CM F α) := fun _ => rfl

theorem comm_modify {f : Cursor F → Cursor F} (h : ∀ c, f (c.ov o) = (f c).ov o) : Comm o (modify f) :=
  fun c => by rw [SM.modify_run, SM.modify_run, h]

theorem comm_bind {m : CM F α} {f : α → CM F β} (h1 : Comm o m) (h2 : ∀ a, Comm o (f a)) : Comm o (m >>= f) := by
  intro c
  rw [SM.bind_run, SM.bind_run, h1 c]
  rcases m c with ⟨r, c1⟩
  cases r with
  | ok a => exact h2 a c1
  | err e => rfl
  | panic e => rfl
  | diverge => rfl

theorem comm_get {f : Cursor F → CM F β} (h1 : ∀ c, f (c.ov o) = f c) (h2 : ∀ c, Comm o (f c)) : Comm o (get >>= f) := by
  intro c
  rw [SM.bind_run, SM.bind_run, SM.get_run, SM.get_run]
  dsimp only
  rw [h1]
  exact h2 c c

theorem comm_ite {p : Prop} [Decidable p] {m n : CM F α} (h1 : Comm o m) (h2 : Comm o n) : Comm o (if p then m else n) := by
  split
  · exact h1
  · exact h2

theorem comm_onPath (m : PM F α) : Comm o (onPath m : CM F α) := by
  intro c
  show (match m c.pc with | (r, pc) => (r, ({ c.ov o with pc := pc } : Cursor F))) = _
  unfold onPath
  rcases m c.pc with ⟨r, pc⟩
  rfl

theorem comm_attrLoop {step : β → Attr → CM F β} (h : ∀ b a, Comm o (step b a)) : ∀ (attrs : List Attr) (b : β), Comm o (attrLoop step b attrs)
  | [], b => comm_pure b
  | a :: as, b => by rw [attrLoop]; exact comm_bind (h b a) fun b' => comm_attrLoop h as b'

theorem handleError_comm (m : Msg) : Comm o (handleError m : CM F Unit) := by
  intro c
  unfold handleError
  by_cases h1 : c.pc.errorMode = ErrorMode.strict
  · rw [if_pos h1, if_pos (show (c.ov o).pc.errorMode = ErrorMode.strict from h1)]
  rw [if_neg h1, if_neg (show ¬ (c.ov o).pc.errorMode = ErrorMode.strict from h1)]
  by_cases h2 : c.pc.errorMode = ErrorMode.warn
  · rw [if_pos h2, if_pos (show (c.ov o).pc.errorMode = ErrorMode.warn from h2)]; rfl
  rw [if_neg h2, if_neg (show ¬ (c.ov o).pc.errorMode = ErrorMode.warn from h2)]

theorem transformLoop_comm : ∀ (items : List Str) (m1 : Matrix2D F), Comm o (transformLoop m1 items)
  | [], m1 => comm_pure m1
  | item :: rest, m1 => by
    rw [transformLoop]
    refine comm_ite (transformLoop_comm rest m1) ?_
    split
    · exact comm_ite (comm_throw _) (comm_bind (comm_onPath _) fun _ => comm_get (fun _ => rfl) fun _ => comm_bind (comm_lift _) fun m =>
        transformLoop_comm rest m)
    · exact comm_throw _

theorem parseTransform_comm (v : Str) : Comm o (parseTransform v : CM F (Matrix2D F)) := by
  unfold parseTransform
  refine comm_get (fun _ => rfl) fun c => ?_
  split
  · exact comm_panic _
  · exact transformLoop_comm _ _

theorem addMask_comm (st : PathStyle F) (id : Str) : Comm o (addMask st id) := fun _ => rfl

theorem runEff_comm (st : PathStyle F) (v : Str) (e : Eff F) : Comm o (runEff st v e) := by
  cases e with
  | set r => exact comm_lift r
  | warn m => exact comm_bind (handleError_comm m) fun _ => comm_pure _
  | transform => exact comm_bind (parseTransform_comm v) fun _ => comm_pure _
  | mask => exact comm_bind (comm_lift _) fun id => addMask_comm st id

theorem readStyleAttr_comm (st : PathStyle F) (k v : Str) : Comm o (readStyleAttr st k v) := by
  intro c
  rw [readStyleAttr_eff, readStyleAttr_eff]
  exact runEff_comm st v (styleEff c.svg st k v) c

theorem pairsLoop_comm : ∀ (ps : List Str) (st : PathStyle F), Comm o (pairsLoop st ps)
  | [], st => comm_pure st
  | p :: ps, st => by
    rw [pairsLoop]
    split
    · exact comm_bind (readStyleAttr_comm st _ _) fun st => pairsLoop_comm ps st
    · exact pairsLoop_comm ps st

theorem pushStyle_comm (attrs : List Attr) : Comm o (pushStyle attrs : CM F Unit) := by
  unfold pushStyle
  refine comm_get (fun _ => rfl) fun c => ?_
  split
  · exact comm_panic _
  · exact comm_bind (pairsLoop_comm _ _) fun _ => comm_modify fun _ => rfl

theorem popStyle_comm : Comm o (popStyle : CM F Unit) := by
  intro c
  unfold popStyle
  rw [show (c.ov o).styleStack = c.styleStack from rfl]
  split <;> rfl

theorem svgBox_comm (wh : F × F) (v : Str) : Comm o (svgBox wh v) := by
  intro c
  unfold svgBox
  rw [show (c.ov o).pc = c.pc from rfl]
  rcases getPoints v c.pc with ⟨r, pc⟩
  dsimp only
  split
  · cases r <;> rfl
  · rfl

theorem svgF_comm (attrs : List Attr) : Comm o (svgF attrs : CM F Unit) := by
  unfold svgF
  refine comm_bind (comm_modify fun _ => rfl) fun _ => comm_bind (comm_attrLoop (fun wh a => ?_) _ _) fun wh => comm_modify fun _ => rfl
  unfold svgAttr
  exact comm_ite (svgBox_comm wh _) (comm_ite (comm_bind (comm_modify fun _ => rfl) fun _ => comm_bind (comm_lift _) fun _ => comm_pure _)
    (comm_ite (comm_bind (comm_modify fun _ => rfl) fun _ => comm_bind (comm_lift _) fun _ => comm_pure _) (comm_pure _)))

theorem rectF_comm (fuel : Nat) (attrs : List Attr) : Comm o (rectF fuel attrs : CM F Unit) := by
  unfold rectF
  refine comm_get (fun _ => rfl) fun c => comm_bind (comm_lift _) fun v => ?_
  split
  · exact comm_diverge
  · exact comm_modify fun _ => rfl

theorem circleF_comm (attrs : List Attr) : Comm o (circleF attrs : CM F Unit) := by
  unfold circleF
  exact comm_get (fun _ => rfl) fun c => comm_bind (comm_lift _) fun v => comm_ite (comm_pure _) (comm_modify fun _ => rfl)

theorem lineF_comm (attrs : List Attr) : Comm o (lineF attrs : CM F Unit) := by
  unfold lineF
  exact comm_get (fun _ => rfl) fun c => comm_bind (comm_lift _) fun v => comm_modify fun _ => rfl

theorem polyAttr_comm (u : Unit) (a : Attr) : Comm o (polyAttr u a : CM F Unit) := by
  unfold polyAttr
  refine comm_ite (fun c => ?_) (comm_pure _)
  rw [show (c.ov o).pc = c.pc from rfl]
  rcases getPoints a.value c.pc with ⟨r, pc⟩
  dsimp only
  split <;> rfl

theorem polylineF_comm (attrs : List Attr) : Comm o (polylineF attrs : CM F Unit) := by
  unfold polylineF
  exact comm_bind (comm_attrLoop polyAttr_comm _ _) fun _ => comm_modify fun _ => rfl

theorem polygonF_comm (attrs : List Attr) : Comm o (polygonF attrs : CM F Unit) := by
  intro c
  unfold polygonF
  rw [polylineF_comm attrs c]
  rcases polylineF attrs c with ⟨r, d⟩
  have h' : (if (d.ov o).pc.points.length > 4 then ({ d.ov o with pc := (d.ov o).pc.addOps [.close] } : Cursor F) else d.ov o) =
      (if d.pc.points.length > 4 then ({ d with pc := d.pc.addOps [.close] } : Cursor F) else d).ov o := by
    rw [show (d.ov o).pc.points = d.pc.points from rfl]
    split <;> rfl
  cases r with
  | ok _ => exact congrArg (Prod.mk _) h'
  | err _ => exact congrArg (Prod.mk _) h'
  | panic _ => rfl
  | diverge => rfl

theorem pathF_comm (attrs : List Attr) : Comm o (pathF attrs : CM F Unit) := by
  refine comm_attrLoop (fun u a => ?_) _ _
  unfold pathAttr
  exact comm_ite (comm_onPath _) (comm_pure _)

theorem modifyGrad_comm (f : Gradient F → Gradient F) : Comm o (modifyGrad f) := by
  intro c
  unfold modifyGrad
  rw [show (c.ov o).grad = c.grad from rfl]
  split <;> rfl

theorem setGradID_comm (id : Str) : Comm o (setGradID id : CM F Unit) := by
  intro c
  unfold setGradID
  rw [show (c.ov o).grad = c.grad from rfl]
  split <;> rfl

theorem currentGrad_comm : Comm o (currentGrad : CM F (Gradient F)) := by
  intro c
  unfold currentGrad
  rw [show (c.ov o).grad = c.grad from rfl, show (c.ov o).svg.gradHeap = c.svg.gradHeap from rfl]
  split <;> rfl

theorem readGradAttr_comm (a : Attr) : Comm o (readGradAttr a : CM F Unit) := by
  unfold readGradAttr
  refine comm_ite (comm_bind (parseTransform_comm _) fun _ => modifyGrad_comm _) (comm_ite ?_ (comm_ite ?_ (comm_pure _)))
  · exact comm_ite (modifyGrad_comm _) (comm_ite (modifyGrad_comm _) (comm_pure _))
  · exact comm_ite (modifyGrad_comm _) (comm_ite (modifyGrad_comm _) (comm_ite (modifyGrad_comm _) (comm_pure _)))

theorem linAttr_comm (d : LinStrs) (a : Attr) : Comm o (linAttr d a : CM F LinStrs) := by
  unfold linAttr
  exact comm_ite (comm_bind (setGradID_comm _) fun _ => comm_pure _) (comm_ite (comm_pure _) (comm_ite (comm_pure _) (comm_ite (comm_pure _)
    (comm_ite (comm_pure _) (comm_bind (readGradAttr_comm _) fun _ => comm_pure _)))))

theorem radAttr_comm (d : RadStrs) (a : Attr) : Comm o (radAttr d a : CM F RadStrs) := by
  unfold radAttr
  exact comm_ite (comm_bind (setGradID_comm _) fun _ => comm_pure _) (comm_ite (comm_pure _) (comm_ite (comm_pure _) (comm_ite (comm_pure _)
    (comm_ite (comm_pure _) (comm_ite (comm_pure _) (comm_ite (comm_pure _) (comm_bind (readGradAttr_comm _) fun _ => comm_pure _)))))))

theorem newGrad_comm : Comm o (newGrad : CM F Unit) := comm_modify fun _ => rfl

theorem linearGradientF_comm (attrs : List Attr) : Comm o (linearGradientF attrs : CM F Unit) := by
  unfold linearGradientF
  exact comm_bind newGrad_comm fun _ => comm_bind (comm_attrLoop linAttr_comm _ _) fun _ => comm_bind currentGrad_comm fun _ =>
    comm_bind (comm_lift _) fun _ => comm_bind (comm_lift _) fun _ => comm_bind (comm_lift _) fun _ => comm_bind (comm_lift _) fun _ =>
    modifyGrad_comm _

theorem radialGradientF_comm (attrs : List Attr) : Comm o (radialGradientF attrs : CM F Unit) := by
  unfold radialGradientF
  exact comm_bind newGrad_comm fun _ => comm_bind (comm_attrLoop radAttr_comm _ _) fun _ => comm_bind currentGrad_comm fun _ =>
    comm_bind (comm_lift _) fun _ => comm_bind (comm_lift _) fun _ => comm_bind (comm_lift _) fun _ => comm_bind (comm_lift _) fun _ =>
    comm_bind (comm_lift _) fun _ => comm_bind (comm_lift _) fun _ => modifyGrad_comm _

theorem stopF_comm (attrs : List Attr) : Comm o (stopF attrs : CM F Unit) := by
  unfold stopF
  exact comm_get (fun _ => rfl) fun c => comm_ite (comm_bind (comm_lift _) fun _ => modifyGrad_comm _) (comm_pure _)

/-- Every element function but that of `mask` (and that of `use`, see below). -/
theorem drawFuncs_comm {fuel : Nat} {use : List Attr → CM F Unit} {tag : Str} {df : List Attr → CM F Unit}
    (h : drawFuncs fuel use tag = some df) (hm : tag ≠ "mask".toList) (hu : tag ≠ "use".toList) (attrs : List Attr) : Comm o (df attrs) := by
  unfold drawFuncs at h
  by_cases h1 : tag = "svg".toList
  · rw [if_pos h1] at h; cases h; exact svgF_comm attrs
  rw [if_neg h1] at h; clear h1
  by_cases h1 : tag = "g".toList
  · rw [if_pos h1] at h; cases h; exact comm_pure _
  rw [if_neg h1] at h; clear h1
  by_cases h1 : tag = "line".toList
  · rw [if_pos h1] at h; cases h; exact lineF_comm attrs
  rw [if_neg h1] at h; clear h1
  by_cases h1 : tag = "stop".toList
  · rw [if_pos h1] at h; cases h; exact stopF_comm attrs
  rw [if_neg h1] at h; clear h1
  by_cases h1 : tag = "rect".toList
  · rw [if_pos h1] at h; cases h; exact rectF_comm fuel attrs
  rw [if_neg h1] at h; clear h1
  by_cases h1 : tag = "circle".toList
  · rw [if_pos h1] at h; cases h; exact circleF_comm attrs
  rw [if_neg h1] at h; clear h1
  by_cases h1 : tag = "ellipse".toList
  · rw [if_pos h1] at h; cases h; exact circleF_comm attrs
  rw [if_neg h1] at h; clear h1
  by_cases h1 : tag = "polyline".toList
  · rw [if_pos h1] at h; cases h; exact polylineF_comm attrs
  rw [if_neg h1] at h; clear h1
  by_cases h1 : tag = "polygon".toList
  · rw [if_pos h1] at h; cases h; exact polygonF_comm attrs
  rw [if_neg h1] at h; clear h1
  by_cases h1 : tag = "path".toList
  · rw [if_pos h1] at h; cases h; exact pathF_comm attrs
  rw [if_neg h1] at h; clear h1
  by_cases h1 : tag = "desc".toList
  · rw [if_pos h1] at h; cases h; exact comm_modify fun _ => rfl
  rw [if_neg h1] at h; clear h1
  by_cases h1 : tag = "defs".toList
  · rw [if_pos h1] at h; cases h; exact comm_modify fun _ => rfl
  rw [if_neg h1] at h; clear h1
  by_cases h1 : tag = "title".toList
  · rw [if_pos h1] at h; cases h; exact comm_modify fun _ => rfl
  rw [if_neg h1] at h; clear h1
  by_cases h1 : tag = "linearGradient".toList
  · rw [if_pos h1] at h; cases h; exact linearGradientF_comm attrs
  rw [if_neg h1] at h; clear h1
  by_cases h1 : tag = "radialGradient".toList
  · rw [if_pos h1] at h; cases h; exact radialGradientF_comm attrs
  rw [if_neg h1, if_neg hm, if_neg hu] at h
  cases h

/-- No mask is among the definitions. -/
def NoMaskDefs (c : Cursor F) : Prop := ∀ id ds, c.svg.defs.find id = some ds → ∀ d ∈ ds, d.tag ≠ "mask".toList

theorem noMaskDefs_elem {c d : Cursor F} (h : ElemR c d) (hc : NoMaskDefs c) : NoMaskDefs d := by
  intro id ds; rw [h.defs]; exact hc id ds

theorem useLoop_comm {draw : Str → Option (List Attr → CM F Unit)}
    (he : ∀ tag df, draw tag = some df → ∀ attrs c, ElemR c (df attrs c).2)
    (hd : ∀ tag df, draw tag = some df → tag ≠ "mask".toList → ∀ attrs c, NoMaskDefs c → df attrs (c.ov o) = ((df attrs c).1, (df attrs c).2.ov o)) :
    ∀ (ds : List Definition), (∀ d ∈ ds, d.tag ≠ "mask".toList) → ∀ c, NoMaskDefs c →
      useLoop draw ds (c.ov o) = ((useLoop draw ds c).1, (useLoop draw ds c).2.ov o)
  | [], _, c, _ => rfl
  | d :: ds, hq, c, hc => by
    have ih := useLoop_comm he hd ds fun d hm => hq d (List.mem_cons_of_mem _ hm)
    have hpop : ∀ c, NoMaskDefs c → (do popStyle; useLoop draw ds : CM F Unit) (c.ov o) =
        (((do popStyle; useLoop draw ds : CM F Unit) c).1, ((do popStyle; useLoop draw ds : CM F Unit) c).2.ov o) := by
      intro c hc
      rw [SM.bind_run, SM.bind_run, popStyle_comm c]
      have h1 := popStyle_elem c
      rcases hr : popStyle c with ⟨r, c1⟩
      rw [hr] at h1
      cases r with
      | ok u => exact ih c1 (noMaskDefs_elem h1 hc)
      | err e => rfl
      | panic s => rfl
      | diverge => rfl
    rw [useLoop]
    by_cases heg : d.tag = "endg".toList
    · rw [if_pos heg]; exact hpop c hc
    · rw [if_neg heg, SM.bind_run, SM.bind_run, pushStyle_comm d.attrs c]
      have h1 := pushStyle_elem d.attrs c
      rcases hr : pushStyle d.attrs c with ⟨r, c1⟩
      rw [hr] at h1
      cases r with
      | ok u =>
        have hc1 := noMaskDefs_elem h1 hc
        dsimp only at hc1 ⊢
        cases hdr : draw d.tag with
        | none => exact handleError_comm _ c1
        | some df =>
          dsimp only
          rw [SM.bind_run, SM.bind_run, hd _ _ hdr (hq d List.mem_cons_self) d.attrs c1 hc1]
          have h2 := he _ _ hdr d.attrs c1
          rcases hr2 : df d.attrs c1 with ⟨r2, c2⟩
          rw [hr2] at h2
          cases r2 with
          | ok u =>
            have hc2 := noMaskDefs_elem h2 hc1
            dsimp only at hc2 ⊢
            split
            · exact hpop c2 hc2
            · exact ih c2 hc2
          | err e => rfl
          | panic s => rfl
          | diverge => rfl
      | err e => rfl
      | panic s => rfl
      | diverge => rfl

theorem useF_comm : ∀ (fuel : Nat) (attrs : List Attr) (c : Cursor F), NoMaskDefs c →
    useF fuel attrs (c.ov o) = ((useF fuel attrs c).1, (useF fuel attrs c).2.ov o)
  | 0, _, _, _ => rfl
  | fuel + 1, attrs, c, hc => by
    rw [useF, SM.bind_run, SM.get_run, SM.bind_run, SM.get_run]
    dsimp only
    rw [SM.bind_run, SM.lift_run, SM.bind_run, SM.lift_run, show (c.ov o).svg.viewBox = c.svg.viewBox from rfl]
    cases hr : Res.loop (useAttr c.svg.viewBox) ⟨[], num 0, num 0⟩ attrs with
    | err e => rfl
    | panic s => rfl
    | diverge => rfl
    | ok v =>
      dsimp only
      unfold withOffset
      have hb : useBody (drawFuncs fuel (useF fuel)) v.href (({ c with pc := { c.pc with curX := v.x, curY := v.y } } : Cursor F).ov o) =
          ((useBody (drawFuncs fuel (useF fuel)) v.href { c with pc := { c.pc with curX := v.x, curY := v.y } }).1,
           (useBody (drawFuncs fuel (useF fuel)) v.href { c with pc := { c.pc with curX := v.x, curY := v.y } }).2.ov o) := by
        have hc' : NoMaskDefs ({ c with pc := { c.pc with curX := v.x, curY := v.y } } : Cursor F) := hc
        generalize ({ c with pc := { c.pc with curX := v.x, curY := v.y } } : Cursor F) = c1 at hc'
        unfold useBody
        by_cases hn : v.href = []
        · rw [if_pos hn]; rfl
        · rw [if_neg hn]
          split
          · rename_i id _
            dsimp only
            rw [SM.bind_run, SM.get_run, SM.bind_run, SM.get_run]
            dsimp only
            rw [show (c1.ov o).svg.defs = c1.svg.defs from rfl]
            cases hf : c1.svg.defs.find id with
            | none => rfl
            | some ds =>
              refine useLoop_comm (fun tag df h attrs c => drawFuncs_elem h attrs c) ?_ ds (hc' id ds hf) c1 hc'
              intro tag df hdr hq attrs c hc
              by_cases ht : tag = "use".toList
              · subst ht; rw [drawFuncs_use] at hdr; cases hdr; exact useF_comm fuel attrs c hc
              · exact drawFuncs_comm hdr hq ht attrs c
          · rfl
      show (match useBody (drawFuncs fuel (useF fuel)) v.href (({ c with pc := { c.pc with curX := v.x, curY := v.y } } : Cursor F).ov o) with
        | (r, c) => (r, ({ c with pc := { c.pc with curX := num 0, curY := num 0 } } : Cursor F))) = _
      rw [hb]
      rcases useBody (drawFuncs fuel (useF fuel)) v.href { c with pc := { c.pc with curX := v.x, curY := v.y } } with ⟨r2, c2⟩
      rfl

/-! ### A mask against a group -/

/-- The first cursor reads the content of a mask, the second the same content of a group. -/
structure AsGroup (mk0 : SvgMask F) (base : List (SvgPath F)) (ms : GoMap (SvgMask F)) (c d : Cursor F) : Prop where
  inMask : c.inMask = true
  paths : c.svg.svgPaths = base
  masks : c.svg.svgMasks = ms
  group : ∃ mk, c.mask = some mk ∧ { mk with svgPaths := [] } = { mk0 with svgPaths := [] } ∧ d = c.ov ⟨base ++ mk.svgPaths, ms, false, none⟩

/-- The collection of a cursor. -/
def Cursor.own (c : Cursor F) : Over F := ⟨c.svg.svgPaths, c.svg.svgMasks, c.inMask, c.mask⟩

theorem ov_own (c : Cursor F) : c.ov c.own = c := rfl

theorem ov_ov (o o' : Over F) (c : Cursor F) : (c.ov o).ov o' = c.ov o' := rfl

/-- A program that leaves the collection alone does the same in both. -/
theorem asGroup_comm {mk0 : SvgMask F} {base : List (SvgPath F)} {ms : GoMap (SvgMask F)} {m : CM F Unit} {c d : Cursor F}
    (hm : ∀ o, m (c.ov o) = ((m c).1, (m c).2.ov o)) (h : AsGroup mk0 base ms c d) : (m d).1 = (m c).1 ∧ AsGroup mk0 base ms (m c).2 (m d).2 := by
  obtain ⟨h1, h2, h3, mk, h4, h5, rfl⟩ := h
  have hown := hm c.own
  rw [ov_own] at hown
  have e : (m c).2 = (m c).2.ov c.own := congrArg Prod.snd hown
  rw [hm]
  refine ⟨rfl, ?_, ?_, ?_, mk, ?_, h5, rfl⟩
  · rw [e]; exact h1
  · rw [e]; exact h2
  · rw [e]; exact h3
  · rw [e]; exact h4

/-- Both runs end alike. -/
def Alongside (mk0 : SvgMask F) (base : List (SvgPath F)) (ms : GoMap (SvgMask F)) (p q : Res Unit × Cursor F) : Prop :=
  q.1 = p.1 ∧ (p.1 = .ok () → AsGroup mk0 base ms p.2 q.2)

theorem emit_alongside {mk0 : SvgMask F} {base : List (SvgPath F)} {ms : GoMap (SvgMask F)} {c d : Cursor F} (h : AsGroup mk0 base ms c d) :
    Alongside mk0 base ms (emitPath c) (emitPath d) ∧ AsGroup mk0 base ms (emitPath c).2 (emitPath d).2 := by
  obtain ⟨h1, h2, h3, mk, h4, h5, rfl⟩ := h
  obtain ⟨pc, svg, stack, grad, t1, t2, g, inD, inM, cd, mask⟩ := c
  dsimp only at h1 h2 h3 h4
  subst h1 h2 h3 h4
  unfold emitPath Cursor.ov
  dsimp only
  cases pc.path with
  | nil => exact ⟨⟨rfl, fun _ => ⟨rfl, rfl, rfl, mk, rfl, h5, rfl⟩⟩, ⟨rfl, rfl, rfl, mk, rfl, h5, rfl⟩⟩
  | cons p ps =>
    cases stack with
    | nil => exact ⟨⟨rfl, fun _ => ⟨rfl, rfl, rfl, mk, rfl, h5, rfl⟩⟩, ⟨rfl, rfl, rfl, mk, rfl, h5, rfl⟩⟩
    | cons st rest =>
      have : AsGroup mk0 svg.svgPaths svg.svgMasks
          (⟨{ pc with path := [] }, svg, st :: rest, grad, t1, t2, g, inD, true, cd, some { mk with svgPaths := mk.svgPaths ++ [⟨p :: ps, st⟩] }⟩ : Cursor F)
          ⟨{ pc with path := [] }, { svg with svgPaths := svg.svgPaths ++ mk.svgPaths ++ [⟨p :: ps, st⟩] }, st :: rest, grad, t1, t2, g, inD, false, cd, none⟩ :=
        ⟨rfl, rfl, rfl, _, rfl, h5, by simp only [Cursor.ov, List.append_assoc]⟩
      exact ⟨⟨rfl, fun _ => this⟩, this⟩

theorem recordDef_comm (name : Str) (attrs : List Attr) (c : Cursor F) : recordDef name attrs (c.ov o) = (recordDef name attrs c).ov o := by
  unfold recordDef
  dsimp only
  rw [show (c.ov o).currentDef = c.currentDef from rfl]
  cases hcd : c.currentDef with
  | nil => simp only [Cursor.ov, hcd]
  | cons d ds =>
    dsimp only
    split
    · rfl
    · simp only [Cursor.ov, hcd]

theorem readStart_alongside {mk0 : SvgMask F} {base : List (SvgPath F)} {ms : GoMap (SvgMask F)} {fuel : Nat} {name : Str} {attrs : List Attr} {c d : Cursor F}
    (hn : name ≠ "mask".toList) (hu : name ≠ "use".toList ∨ NoMaskDefs c) (h : AsGroup mk0 base ms c d) :
    Alongside mk0 base ms (readStartElement fuel name attrs c) (readStartElement fuel name attrs d) := by
  have hdefs : d.inDefs = c.inDefs := by obtain ⟨mk, -, -, e⟩ := h.group; rw [e]; rfl
  have hgrad : d.inGrad = c.inGrad := by obtain ⟨mk, -, -, e⟩ := h.group; rw [e]; rfl
  unfold readStartElement
  dsimp only
  rw [hdefs, hgrad]
  by_cases hc : c.inDefs = true ∧ ¬ (name = "radialGradient".toList ∨ name = "linearGradient".toList ∨ c.inGrad = true)
  · rw [if_pos hc, if_pos hc]
    refine ⟨rfl, fun _ => ?_⟩
    exact (asGroup_comm (m := fun c => (.ok (), recordDef name attrs c)) (fun o => by dsimp only; rw [recordDef_comm]) h).2
  · rw [if_neg hc, if_neg hc]
    cases hd : drawFuncs (F := F) fuel (useF fuel) name with
    | none =>
      have := asGroup_comm (handleError_comm (.cannotProcess name) (o := ·) c) h
      exact ⟨this.1, fun _ => this.2⟩
    | some df =>
      have hdf : ∀ o, df attrs (c.ov o) = ((df attrs c).1, (df attrs c).2.ov o) := by
        intro o
        by_cases hn' : name = "use".toList
        · subst hn'; rw [drawFuncs_use] at hd; cases hd
          exact useF_comm fuel attrs c (hu.resolve_left fun h => h rfl)
        · exact drawFuncs_comm hd hn hn' attrs c
      obtain ⟨h1, h2⟩ := asGroup_comm hdf h
      dsimp only
      rcases hr : df attrs c with ⟨r, c1⟩
      rcases hr' : df attrs d with ⟨r', d1⟩
      rw [hr, hr'] at h1 h2
      dsimp only at h1 h2
      subst h1
      obtain ⟨⟨e1, e2⟩, e3⟩ := emit_alongside h2
      rcases he : emitPath c1 with ⟨s, c2⟩
      rcases he' : emitPath d1 with ⟨s', d2⟩
      rw [he, he'] at e1 e2 e3
      dsimp only at e1 e2 e3
      subst e1
      cases r' with
      | panic s => exact ⟨rfl, fun h => nomatch h⟩
      | diverge => exact ⟨rfl, fun h => nomatch h⟩
      | ok u =>
        dsimp only
        rw [he, he']
        cases s' with
        | ok v => exact ⟨rfl, fun _ => e3⟩
        | err v => exact ⟨rfl, fun _ => e3⟩
        | panic v => exact ⟨rfl, fun _ => e3⟩
        | diverge => exact ⟨rfl, fun _ => e3⟩
      | err u =>
        dsimp only
        rw [he, he']
        cases s' with
        | ok v => exact ⟨rfl, fun _ => e3⟩
        | err v => exact ⟨rfl, fun _ => e3⟩
        | panic v => exact ⟨rfl, fun _ => e3⟩
        | diverge => exact ⟨rfl, fun _ => e3⟩

theorem readEnd_comm {name : Str} (hn : name ≠ "mask".toList) : Comm o (readEndElement name : CM F Unit) := by
  unfold readEndElement
  refine comm_bind popStyle_comm fun _ => comm_modify fun c => ?_
  by_cases h1 : name = "g".toList
  · rw [if_pos h1, if_pos h1, show (c.ov o).inDefs = c.inDefs from rfl]
    split <;> rfl
  rw [if_neg h1, if_neg h1, if_neg hn, if_neg hn]
  by_cases h1 : name = "title".toList
  · rw [if_pos h1, if_pos h1]; rfl
  rw [if_neg h1, if_neg h1]
  by_cases h1 : name = "desc".toList
  · rw [if_pos h1, if_pos h1]; rfl
  rw [if_neg h1, if_neg h1]
  by_cases h1 : name = "defs".toList
  · rw [if_pos h1, if_pos h1, show (c.ov o).currentDef = c.currentDef from rfl]
    split <;> rfl
  rw [if_neg h1, if_neg h1]
  split <;> rfl

theorem readChars_comm (s : Str) : Comm o (readChars s : CM F Unit) := by
  intro c
  unfold readChars
  rw [show (c.ov o).inTitleText = c.inTitleText from rfl, show (c.ov o).svg.titles = c.svg.titles from rfl]
  cases (if c.inTitleText = true then appendLast c.svg.titles s else some c.svg.titles) with
  | none => rfl
  | some titles =>
    dsimp only
    rw [show (c.ov o).inDescText = c.inDescText from rfl, show (c.ov o).svg.descriptions = c.svg.descriptions from rfl]
    cases (if c.inDescText = true then appendLast c.svg.descriptions s else some c.svg.descriptions) <;> rfl

/-- No tag of a mask. -/
def NotMaskTag : Token → Prop
  | .start name _ => name ≠ "mask".toList
  | .stop name => name ≠ "mask".toList
  | _ => True

theorem readToken_alongside {mk0 : SvgMask F} {base : List (SvgPath F)} {ms : GoMap (SvgMask F)} {fuel : Nat} {t : Token} {c d : Cursor F}
    (ht : NotMaskTag t) (hu : (∀ attrs, t ≠ .start "use".toList attrs) ∨ NoMaskDefs c) (h : AsGroup mk0 base ms c d) :
    Alongside mk0 base ms (readToken fuel t c) (readToken fuel t d) := by
  cases t with
  | start name attrs =>
    rw [readToken, SM.bind_run, SM.bind_run]
    obtain ⟨h1, h2⟩ := asGroup_comm (pushStyle_comm attrs (o := ·) c) h
    have hE := pushStyle_elem attrs c
    rcases hr : pushStyle attrs c with ⟨r, c1⟩
    rcases hr' : pushStyle attrs d with ⟨r', d1⟩
    rw [hr, hr'] at h1 h2
    rw [hr] at hE
    dsimp only at h1 h2 hE
    subst h1
    cases r' with
    | ok u =>
      refine readStart_alongside ht ?_ h2
      rcases hu with hu | hu
      · exact .inl fun h => hu attrs (by rw [h])
      · exact .inr (noMaskDefs_elem hE hu)
    | err e => exact ⟨rfl, fun h => nomatch h⟩
    | panic e => exact ⟨rfl, fun h => nomatch h⟩
    | diverge => exact ⟨rfl, fun h => nomatch h⟩
  | stop name =>
    have := asGroup_comm (readEnd_comm (name := name) ht (o := ·) c) h
    exact ⟨this.1, fun _ => this.2⟩
  | chars s =>
    have := asGroup_comm (readChars_comm s (o := ·) c) h
    exact ⟨this.1, fun _ => this.2⟩
  | other => exact ⟨rfl, fun _ => h⟩

theorem readTokens_alongside {mk0 : SvgMask F} {base : List (SvgPath F)} {ms : GoMap (SvgMask F)} {fuel : Nat} : ∀ {ts : List Token} {c d : Cursor F},
    (∀ t ∈ ts, NotMaskTag t) → (NoUse ts ∨ DefsQ (fun d => d.tag ≠ "mask".toList) c) → AsGroup mk0 base ms c d →
    Alongside mk0 base ms (readTokens fuel ts c) (readTokens fuel ts d)
  | [], c, d, _, _, h => ⟨rfl, fun _ => h⟩
  | t :: ts, c, d, ht, hu, h => by
    rw [readTokens_cons, readTokens_cons, SM.bind_run, SM.bind_run]
    have hu1 : (∀ attrs, t ≠ .start "use".toList attrs) ∨ NoMaskDefs c := by
      rcases hu with hu | hu
      · exact .inl (noUse_cons hu).1
      · exact .inr hu.defs
    obtain ⟨h1, h2⟩ := readToken_alongside (fuel := fuel) (ht t List.mem_cons_self) hu1 h
    have hq : NoUse ts ∨ DefsQ (fun d => d.tag ≠ "mask".toList) (readToken fuel t c).2 := by
      rcases hu with hu | hu
      · exact .inl (noUse_cons hu).2
      · refine .inr (readToken_defsQ (by show "endg".toList ≠ "mask".toList; decide) fuel ?_ hu)
        have := ht t List.mem_cons_self
        cases t with
        | start n a => exact this
        | _ => trivial
    rcases hr : readToken fuel t c with ⟨r, c1⟩
    rcases hr' : readToken fuel t d with ⟨r', d1⟩
    rw [hr, hr'] at h1 h2
    rw [hr] at hq
    dsimp only at h1 h2 hq
    subst h1
    cases r' with
    | ok u => exact readTokens_alongside (fun t h => ht t (List.mem_cons_of_mem _ h)) hq (h2 rfl)
    | err e => exact ⟨rfl, fun h => nomatch h⟩
    | panic e => exact ⟨rfl, fun h => nomatch h⟩
    | diverge => exact ⟨rfl, fun h => nomatch h⟩

end GoSvg
