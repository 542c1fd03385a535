import Verif.Lemmas.Defs
import Verif.Lemmas.Walk

/-! The width and the height of a drawing play no part in the rest of the result. -/

set_option linter.unusedSectionVars false

namespace GoSvg

open Spec

variable {F : Type} [GoFloat F] [GoEnv]

open SM (get modify throw lift panic diverge forEach)

/-- The same cursor with another width and height of the drawing. -/
def Cursor.sized (k : Str × Str) (c : Cursor F) : Cursor F := { c with svg := { c.svg with width := k.1, height := k.2 } }

/-- A program that does the same whatever the size is. -/
def SizeFree {α : Type} (m : CM F α) : Prop :=
  ∀ (c : Cursor F) (k : Str × Str), ∃ k' : Str × Str, m (c.sized k) = ((m c).1, (m c).2.sized k')

/-- A program that leaves the size alone. -/
def Unsized (k : Str × Str) {α : Type} (m : CM F α) : Prop := ∀ c : Cursor F, m (c.sized k) = ((m c).1, (m c).2.sized k)

variable {k : Str × Str} {α β : Type}

theorem unsized_pure (a : α) : Unsized k (pure a : CM F α) := fun _ => rfl
theorem unsized_lift (a : Res α) : Unsized k (lift a : CM F α) := fun _ => rfl
theorem unsized_throw (a : Err) : Unsized k (throw a : CM F α) := fun _ => rfl
theorem unsized_panic (a : Site) : Unsized k (panic a : CM F α) := fun _ => rfl
theorem unsized_diverge : Unsized k (diverge : CM F α) := fun _ => rfl

theorem unsized_modify {f : Cursor F → Cursor F} (h : ∀ c, f (c.sized k) = (f c).sized k) : Unsized k (modify f) :=
  fun c => by rw [SM.modify_run, SM.modify_run, h]

theorem unsized_bind {m : CM F α} {f : α → CM F β} (h1 : Unsized k m) (h2 : ∀ a, Unsized k (f a)) : Unsized k (m >>= f) := by
  intro c
  rw [SM.bind_run, SM.bind_run, h1 c]
  rcases m c with ⟨r, c1⟩
  cases r with
  | ok a => exact h2 a c1
  | err e => rfl
  | panic e => rfl
  | diverge => rfl

theorem unsized_get {f : Cursor F → CM F β} (h1 : ∀ c, f (c.sized k) = f c) (h2 : ∀ c, Unsized k (f c)) : Unsized k (get >>= f) := by
  intro c
  rw [SM.bind_run, SM.bind_run, SM.get_run, SM.get_run]
  dsimp only
  rw [h1]
  exact h2 c c

theorem unsized_ite {p : Prop} [Decidable p] {m n : CM F α} (h1 : Unsized k m) (h2 : Unsized k n) : Unsized k (if p then m else n) := by
  split
  · exact h1
  · exact h2

theorem unsized_onPath (m : PM F α) : Unsized k (onPath m : CM F α) := by
  intro c
  show (match m c.pc with | (r, pc) => (r, ({ c.sized k with pc := pc } : Cursor F))) = _
  unfold onPath
  rcases m c.pc with ⟨r, pc⟩
  rfl

theorem unsized_attrLoop {step : β → Attr → CM F β} (h : ∀ b a, Unsized k (step b a)) : ∀ (attrs : List Attr) (b : β), Unsized k (attrLoop step b attrs)
  | [], b => unsized_pure b
  | a :: as, b => by rw [attrLoop]; exact unsized_bind (h b a) fun b' => unsized_attrLoop h as b'

theorem handleError_unsized (m : Msg) : Unsized k (handleError m : CM F Unit) := by
  intro c
  unfold handleError
  by_cases h1 : c.pc.errorMode = ErrorMode.strict
  · rw [if_pos h1, if_pos (show (c.sized k).pc.errorMode = ErrorMode.strict from h1)]
  rw [if_neg h1, if_neg (show ¬ (c.sized k).pc.errorMode = ErrorMode.strict from h1)]
  by_cases h2 : c.pc.errorMode = ErrorMode.warn
  · rw [if_pos h2, if_pos (show (c.sized k).pc.errorMode = ErrorMode.warn from h2)]; rfl
  rw [if_neg h2, if_neg (show ¬ (c.sized k).pc.errorMode = ErrorMode.warn from h2)]

theorem transformLoop_unsized : ∀ (items : List Str) (m1 : Matrix2D F), Unsized k (transformLoop m1 items)
  | [], m1 => unsized_pure m1
  | item :: rest, m1 => by
    rw [transformLoop]
    refine unsized_ite (transformLoop_unsized rest m1) ?_
    split
    · exact unsized_ite (unsized_throw _) (unsized_bind (unsized_onPath _) fun _ => unsized_get (fun _ => rfl) fun _ => unsized_bind (unsized_lift _) fun m =>
        transformLoop_unsized rest m)
    · exact unsized_throw _

theorem parseTransform_unsized (v : Str) : Unsized k (parseTransform v : CM F (Matrix2D F)) := by
  unfold parseTransform
  refine unsized_get (fun _ => rfl) fun c => ?_
  split
  · exact unsized_panic _
  · exact transformLoop_unsized _ _

theorem addMask_unsized (st : PathStyle F) (id : Str) : Unsized k (addMask st id) := fun _ => rfl

theorem runEff_unsized (st : PathStyle F) (v : Str) (e : Eff F) : Unsized k (runEff st v e) := by
  cases e with
  | set r => exact unsized_lift r
  | warn m => exact unsized_bind (handleError_unsized m) fun _ => unsized_pure _
  | transform => exact unsized_bind (parseTransform_unsized v) fun _ => unsized_pure _
  | mask => exact unsized_bind (unsized_lift _) fun id => addMask_unsized st id

theorem readStyleAttr_unsized (st : PathStyle F) (n v : Str) : Unsized k (readStyleAttr st n v) := by
  intro c
  rw [readStyleAttr_eff, readStyleAttr_eff, show styleEff (c.sized k).svg st n v = styleEff c.svg st n v from rfl]
  exact runEff_unsized st v (styleEff c.svg st n v) c

theorem pairsLoop_unsized : ∀ (ps : List Str) (st : PathStyle F), Unsized k (pairsLoop st ps)
  | [], st => unsized_pure st
  | p :: ps, st => by
    rw [pairsLoop]
    split
    · exact unsized_bind (readStyleAttr_unsized st _ _) fun st => pairsLoop_unsized ps st
    · exact pairsLoop_unsized ps st

theorem pushStyle_unsized (attrs : List Attr) : Unsized k (pushStyle attrs : CM F Unit) := by
  unfold pushStyle
  refine unsized_get (fun _ => rfl) fun c => ?_
  split
  · exact unsized_panic _
  · exact unsized_bind (pairsLoop_unsized _ _) fun st => unsized_modify fun _ => rfl

theorem popStyle_unsized : Unsized k (popStyle : CM F Unit) := by
  intro c
  unfold popStyle
  rw [show (c.sized k).styleStack = c.styleStack from rfl]
  cases c.styleStack <;> rfl

theorem svgBox_unsized (wh : F × F) (v : Str) : Unsized k (svgBox wh v) := by
  intro c
  unfold svgBox
  rw [show (c.sized k).pc = c.pc from rfl]
  rcases getPoints v c.pc with ⟨r, pc⟩
  dsimp only
  split
  · cases r <;> rfl
  · rfl

theorem rectF_unsized (fuel : Nat) (attrs : List Attr) : Unsized k (rectF fuel attrs : CM F Unit) := by
  unfold rectF
  refine unsized_get (fun _ => rfl) fun c => unsized_bind (unsized_lift _) fun v => ?_
  split
  · exact unsized_diverge
  · exact unsized_modify fun _ => rfl

theorem circleF_unsized (attrs : List Attr) : Unsized k (circleF attrs : CM F Unit) := by
  unfold circleF
  exact unsized_get (fun _ => rfl) fun c => unsized_bind (unsized_lift _) fun v => unsized_ite (unsized_pure _) (unsized_modify fun _ => rfl)

theorem lineF_unsized (attrs : List Attr) : Unsized k (lineF attrs : CM F Unit) := by
  unfold lineF
  exact unsized_get (fun _ => rfl) fun c => unsized_bind (unsized_lift _) fun v => unsized_modify fun _ => rfl

theorem polyAttr_unsized (u : Unit) (a : Attr) : Unsized k (polyAttr u a : CM F Unit) := by
  unfold polyAttr
  refine unsized_ite (fun c => ?_) (unsized_pure _)
  rw [show (c.sized k).pc = c.pc from rfl]
  rcases getPoints a.value c.pc with ⟨r, pc⟩
  dsimp only
  split <;> rfl

theorem polylineF_unsized (attrs : List Attr) : Unsized k (polylineF attrs : CM F Unit) := by
  unfold polylineF
  exact unsized_bind (unsized_attrLoop polyAttr_unsized _ _) fun _ => unsized_modify fun _ => rfl

theorem polygonF_unsized (attrs : List Attr) : Unsized k (polygonF attrs : CM F Unit) := by
  intro c
  unfold polygonF
  rw [polylineF_unsized attrs c]
  rcases polylineF attrs c with ⟨r, d⟩
  have h' : (if (d.sized k).pc.points.length > 4 then ({ d.sized k with pc := (d.sized k).pc.addOps [.close] } : Cursor F) else d.sized k) =
      (if d.pc.points.length > 4 then ({ d with pc := d.pc.addOps [.close] } : Cursor F) else d).sized k := by
    rw [show (d.sized k).pc.points = d.pc.points from rfl]
    split <;> rfl
  cases r with
  | ok _ => exact congrArg (Prod.mk _) h'
  | err _ => exact congrArg (Prod.mk _) h'
  | panic _ => rfl
  | diverge => rfl

theorem pathF_unsized (attrs : List Attr) : Unsized k (pathF attrs : CM F Unit) := by
  refine unsized_attrLoop (fun u a => ?_) _ _
  unfold pathAttr
  exact unsized_ite (unsized_onPath _) (unsized_pure _)

theorem modifyGrad_unsized (f : Gradient F → Gradient F) : Unsized k (modifyGrad f) := by
  intro c
  unfold modifyGrad
  rw [show (c.sized k).grad = c.grad from rfl]
  split <;> rfl

theorem setGradID_unsized (id : Str) : Unsized k (setGradID id : CM F Unit) := by
  intro c
  unfold setGradID
  rw [show (c.sized k).grad = c.grad from rfl]
  split <;> rfl

theorem currentGrad_unsized : Unsized k (currentGrad : CM F (Gradient F)) := by
  intro c
  unfold currentGrad
  rw [show (c.sized k).grad = c.grad from rfl, show (c.sized k).svg.gradHeap = c.svg.gradHeap from rfl]
  split <;> rfl

theorem readGradAttr_unsized (a : Attr) : Unsized k (readGradAttr a : CM F Unit) := by
  unfold readGradAttr
  refine unsized_ite (unsized_bind (parseTransform_unsized _) fun _ => modifyGrad_unsized _) (unsized_ite ?_ (unsized_ite ?_ (unsized_pure _)))
  · exact unsized_ite (modifyGrad_unsized _) (unsized_ite (modifyGrad_unsized _) (unsized_pure _))
  · exact unsized_ite (modifyGrad_unsized _) (unsized_ite (modifyGrad_unsized _) (unsized_ite (modifyGrad_unsized _) (unsized_pure _)))

theorem linAttr_unsized (d : LinStrs) (a : Attr) : Unsized k (linAttr d a : CM F LinStrs) := by
  unfold linAttr
  exact unsized_ite (unsized_bind (setGradID_unsized _) fun _ => unsized_pure _) (unsized_ite (unsized_pure _) (unsized_ite (unsized_pure _) (unsized_ite (unsized_pure _)
    (unsized_ite (unsized_pure _) (unsized_bind (readGradAttr_unsized _) fun _ => unsized_pure _)))))

theorem radAttr_unsized (d : RadStrs) (a : Attr) : Unsized k (radAttr d a : CM F RadStrs) := by
  unfold radAttr
  exact unsized_ite (unsized_bind (setGradID_unsized _) fun _ => unsized_pure _) (unsized_ite (unsized_pure _) (unsized_ite (unsized_pure _) (unsized_ite (unsized_pure _)
    (unsized_ite (unsized_pure _) (unsized_ite (unsized_pure _) (unsized_ite (unsized_pure _) (unsized_bind (readGradAttr_unsized _) fun _ => unsized_pure _)))))))

theorem newGrad_unsized : Unsized k (newGrad : CM F Unit) := unsized_modify fun _ => rfl

theorem linearGradientF_unsized (attrs : List Attr) : Unsized k (linearGradientF attrs : CM F Unit) := by
  unfold linearGradientF
  exact unsized_bind newGrad_unsized fun _ => unsized_bind (unsized_attrLoop linAttr_unsized _ _) fun _ => unsized_bind currentGrad_unsized fun _ =>
    unsized_bind (unsized_lift _) fun _ => unsized_bind (unsized_lift _) fun _ => unsized_bind (unsized_lift _) fun _ => unsized_bind (unsized_lift _) fun _ =>
    modifyGrad_unsized _

theorem radialGradientF_unsized (attrs : List Attr) : Unsized k (radialGradientF attrs : CM F Unit) := by
  unfold radialGradientF
  exact unsized_bind newGrad_unsized fun _ => unsized_bind (unsized_attrLoop radAttr_unsized _ _) fun _ => unsized_bind currentGrad_unsized fun _ =>
    unsized_bind (unsized_lift _) fun _ => unsized_bind (unsized_lift _) fun _ => unsized_bind (unsized_lift _) fun _ => unsized_bind (unsized_lift _) fun _ =>
    unsized_bind (unsized_lift _) fun _ => unsized_bind (unsized_lift _) fun _ => modifyGrad_unsized _

theorem stopF_unsized (attrs : List Attr) : Unsized k (stopF attrs : CM F Unit) := by
  unfold stopF
  exact unsized_get (fun _ => rfl) fun c => unsized_ite (unsized_bind (unsized_lift _) fun _ => modifyGrad_unsized _) (unsized_pure _)

theorem maskF_unsized (attrs : List Attr) : Unsized k (maskF attrs : CM F Unit) := by
  unfold maskF
  exact unsized_get (fun _ => rfl) fun c => unsized_bind (unsized_lift _) fun v => unsized_modify fun _ => rfl

theorem Unsized.free {m : CM F α} (h : ∀ k, Unsized k m) : SizeFree m := fun c k => ⟨k, h k c⟩

theorem sizeFree_bind {m : CM F α} {f : α → CM F β} (h1 : SizeFree m) (h2 : ∀ a, SizeFree (f a)) : SizeFree (m >>= f) := by
  intro c k
  obtain ⟨k1, e1⟩ := h1 c k
  rw [SM.bind_run, SM.bind_run, e1]
  rcases m c with ⟨r, c1⟩
  cases r with
  | ok a => exact h2 a c1 k1
  | err e => exact ⟨k1, rfl⟩
  | panic e => exact ⟨k1, rfl⟩
  | diverge => exact ⟨k1, rfl⟩

theorem sizeFree_get {f : Cursor F → CM F β} (h1 : ∀ (c : Cursor F) k, f (c.sized k) = f c) (h2 : ∀ c, SizeFree (f c)) : SizeFree (get >>= f) := by
  intro c k
  rw [SM.bind_run, SM.bind_run, SM.get_run, SM.get_run]
  dsimp only
  rw [h1]
  exact h2 c c k

theorem sizeFree_ite {p : Prop} [Decidable p] {m n : CM F α} (h1 : SizeFree m) (h2 : SizeFree n) : SizeFree (if p then m else n) := by
  split
  · exact h1
  · exact h2

theorem sizeFree_attrLoop {step : β → Attr → CM F β} (h : ∀ b a, SizeFree (step b a)) : ∀ (attrs : List Attr) (b : β), SizeFree (attrLoop step b attrs)
  | [], b => Unsized.free fun _ => unsized_pure b
  | a :: as, b => by rw [attrLoop]; exact sizeFree_bind (h b a) fun b' => sizeFree_attrLoop h as b'

theorem svgF_sizeFree (attrs : List Attr) : SizeFree (svgF attrs : CM F Unit) := by
  unfold svgF
  refine sizeFree_bind (Unsized.free fun _ => unsized_modify fun _ => rfl) fun _ => sizeFree_bind (sizeFree_attrLoop (fun wh a => ?_) _ _) fun wh =>
    Unsized.free fun _ => unsized_modify fun _ => rfl
  unfold svgAttr
  refine sizeFree_ite (Unsized.free fun _ => svgBox_unsized wh _) (sizeFree_ite (sizeFree_bind (fun c k => ⟨(a.value, k.2), rfl⟩) fun _ => Unsized.free fun _ => ?_)
    (sizeFree_ite (sizeFree_bind (fun c k => ⟨(k.1, a.value), rfl⟩) fun _ => Unsized.free fun _ => ?_) (Unsized.free fun _ => unsized_pure _)))
  · exact unsized_bind (unsized_lift _) fun _ => unsized_pure _
  · exact unsized_bind (unsized_lift _) fun _ => unsized_pure _

/-- Every element function but that of `use`, see below. -/
theorem drawFuncs_sizeFree {fuel : Nat} {use : List Attr → CM F Unit} {tag : Str} {df : List Attr → CM F Unit}
    (h : drawFuncs fuel use tag = some df) (hu : tag ≠ "use".toList) (attrs : List Attr) : SizeFree (df attrs) := by
  unfold drawFuncs at h
  by_cases h1 : tag = "svg".toList
  · rw [if_pos h1] at h; cases h; exact svgF_sizeFree attrs
  rw [if_neg h1] at h; clear h1
  by_cases h1 : tag = "g".toList
  · rw [if_pos h1] at h; cases h; exact Unsized.free fun _ => unsized_pure _
  rw [if_neg h1] at h; clear h1
  by_cases h1 : tag = "line".toList
  · rw [if_pos h1] at h; cases h; exact Unsized.free fun _ => lineF_unsized attrs
  rw [if_neg h1] at h; clear h1
  by_cases h1 : tag = "stop".toList
  · rw [if_pos h1] at h; cases h; exact Unsized.free fun _ => stopF_unsized attrs
  rw [if_neg h1] at h; clear h1
  by_cases h1 : tag = "rect".toList
  · rw [if_pos h1] at h; cases h; exact Unsized.free fun _ => rectF_unsized fuel attrs
  rw [if_neg h1] at h; clear h1
  by_cases h1 : tag = "circle".toList
  · rw [if_pos h1] at h; cases h; exact Unsized.free fun _ => circleF_unsized attrs
  rw [if_neg h1] at h; clear h1
  by_cases h1 : tag = "ellipse".toList
  · rw [if_pos h1] at h; cases h; exact Unsized.free fun _ => circleF_unsized attrs
  rw [if_neg h1] at h; clear h1
  by_cases h1 : tag = "polyline".toList
  · rw [if_pos h1] at h; cases h; exact Unsized.free fun _ => polylineF_unsized attrs
  rw [if_neg h1] at h; clear h1
  by_cases h1 : tag = "polygon".toList
  · rw [if_pos h1] at h; cases h; exact Unsized.free fun _ => polygonF_unsized attrs
  rw [if_neg h1] at h; clear h1
  by_cases h1 : tag = "path".toList
  · rw [if_pos h1] at h; cases h; exact Unsized.free fun _ => pathF_unsized attrs
  rw [if_neg h1] at h; clear h1
  by_cases h1 : tag = "desc".toList
  · rw [if_pos h1] at h; cases h; exact Unsized.free fun _ => unsized_modify fun _ => rfl
  rw [if_neg h1] at h; clear h1
  by_cases h1 : tag = "defs".toList
  · rw [if_pos h1] at h; cases h; exact Unsized.free fun _ => unsized_modify fun _ => rfl
  rw [if_neg h1] at h; clear h1
  by_cases h1 : tag = "title".toList
  · rw [if_pos h1] at h; cases h; exact Unsized.free fun _ => unsized_modify fun _ => rfl
  rw [if_neg h1] at h; clear h1
  by_cases h1 : tag = "linearGradient".toList
  · rw [if_pos h1] at h; cases h; exact Unsized.free fun _ => linearGradientF_unsized attrs
  rw [if_neg h1] at h; clear h1
  by_cases h1 : tag = "radialGradient".toList
  · rw [if_pos h1] at h; cases h; exact Unsized.free fun _ => radialGradientF_unsized attrs
  rw [if_neg h1] at h; clear h1
  by_cases h1 : tag = "mask".toList
  · rw [if_pos h1] at h; cases h; exact Unsized.free fun _ => maskF_unsized attrs
  rw [if_neg h1, if_neg hu] at h
  cases h

theorem useLoop_sizeFree {draw : Str → Option (List Attr → CM F Unit)} (hd : ∀ tag df, draw tag = some df → ∀ attrs, SizeFree (df attrs)) :
    ∀ (ds : List Definition), SizeFree (useLoop draw ds)
  | [] => Unsized.free fun _ => unsized_pure _
  | d :: ds => by
    have ih := useLoop_sizeFree hd ds
    have hpop : SizeFree (do popStyle; useLoop draw ds) := sizeFree_bind (Unsized.free fun _ => popStyle_unsized) fun _ => ih
    rw [useLoop]
    refine sizeFree_ite hpop (sizeFree_bind (Unsized.free fun _ => pushStyle_unsized _) fun _ => ?_)
    cases hdr : draw d.tag with
    | none => exact Unsized.free fun _ => handleError_unsized _
    | some df => exact sizeFree_bind (hd _ _ hdr d.attrs) fun _ => sizeFree_ite hpop ih

theorem useBody_sizeFree {draw : Str → Option (List Attr → CM F Unit)} (hd : ∀ tag df, draw tag = some df → ∀ attrs, SizeFree (df attrs))
    (href : Str) : SizeFree (useBody draw href) := by
  have key : ∀ P : CM F Unit, P = (match href with
      | '#' :: id => do
        let c ← get
        match c.svg.defs.find id with
        | none => throw .useNotFound
        | some defs => useLoop draw defs
      | _ => throw .useNotID : CM F Unit) → SizeFree P := by
    intro P hP
    rw [hP]
    split
    · refine sizeFree_get (fun _ _ => rfl) fun c => ?_
      split
      · exact Unsized.free fun _ => unsized_throw _
      · exact useLoop_sizeFree hd _
    · exact Unsized.free fun _ => unsized_throw _
  unfold useBody
  exact sizeFree_ite (sizeFree_bind (Unsized.free fun _ => unsized_throw _) fun _ => key _ rfl) (key _ rfl)

theorem useF_sizeFree : ∀ (fuel : Nat) (attrs : List Attr), SizeFree (useF fuel attrs : CM F Unit)
  | 0, _ => Unsized.free fun _ => unsized_diverge
  | fuel + 1, attrs => by
    rw [useF]
    refine sizeFree_get (fun _ _ => rfl) fun c => sizeFree_bind (Unsized.free fun _ => unsized_lift _) fun v => ?_
    have hb : SizeFree (useBody (drawFuncs fuel (useF fuel)) v.href : CM F Unit) := by
      refine useBody_sizeFree ?_ _
      intro tag df h attrs
      by_cases hu : tag = "use".toList
      · subst hu; rw [drawFuncs_use] at h; cases h; exact useF_sizeFree fuel attrs
      · exact drawFuncs_sizeFree h hu attrs
    intro c k
    unfold withOffset
    obtain ⟨k', e⟩ := hb { c with pc := { c.pc with curX := v.x, curY := v.y } } k
    refine ⟨k', ?_⟩
    show (match useBody (drawFuncs fuel (useF fuel)) v.href (({ c with pc := { c.pc with curX := v.x, curY := v.y } } : Cursor F).sized k) with
        | (r, c) => (r, ({ c with pc := { c.pc with curX := num 0, curY := num 0 } } : Cursor F))) = _
    rw [e]
    rcases useBody (drawFuncs fuel (useF fuel)) v.href { c with pc := { c.pc with curX := v.x, curY := v.y } } with ⟨r2, c2⟩
    rfl

theorem emitPath_unsized : Unsized k (emitPath : CM F Unit) := by
  intro c
  obtain ⟨pc, svg, ss, gr, it, id, ig, df, im, cd, mk⟩ := c
  obtain ⟨path, x, y, cx, cy, kx, ky, sx, sy, ps, lk, em, ip, lg⟩ := pc
  cases path <;> cases im <;> cases mk <;> cases ss <;> rfl

theorem readStart_sizeFree (fuel : Nat) (name : Str) (attrs : List Attr) : SizeFree (readStartElement fuel name attrs : CM F Unit) := by
  intro c k
  unfold readStartElement
  dsimp only
  rw [show (c.sized k).inDefs = c.inDefs from rfl, show (c.sized k).inGrad = c.inGrad from rfl]
  split
  · refine ⟨k, ?_⟩
    unfold recordDef
    dsimp only
    rw [show (c.sized k).currentDef = c.currentDef from rfl]
    cases hcd : c.currentDef with
    | nil => simp only [Cursor.sized, hcd]
    | cons d ds =>
      dsimp only
      split
      · rfl
      · simp only [Cursor.sized, hcd]
  · cases hd : drawFuncs (F := F) fuel (useF fuel) name with
    | none => exact ⟨k, handleError_unsized _ c⟩
    | some df =>
      dsimp only
      have hA : SizeFree (df attrs) := by
        by_cases hu : name = "use".toList
        · subst hu; rw [drawFuncs_use] at hd; cases hd; exact useF_sizeFree fuel attrs
        · exact drawFuncs_sizeFree hd hu attrs
      obtain ⟨k1, h1⟩ := hA c k
      refine ⟨k1, ?_⟩
      rw [h1]
      rcases df attrs c with ⟨r, c1⟩
      have h2 := emitPath_unsized (k := k1) c1
      cases r with
      | panic s => rfl
      | diverge => rfl
      | ok u =>
        dsimp only
        rw [h2]
        rcases emitPath c1 with ⟨s, c2⟩
        cases s <;> rfl
      | err u =>
        dsimp only
        rw [h2]
        rcases emitPath c1 with ⟨s, c2⟩
        cases s <;> rfl

theorem readEnd_sizeFree (name : Str) : SizeFree (readEndElement name : CM F Unit) := by
  unfold readEndElement
  refine sizeFree_bind (Unsized.free fun _ => popStyle_unsized) fun _ c k => ?_
  rw [SM.modify_run, SM.modify_run]
  by_cases h1 : name = "g".toList
  · rw [if_pos h1, if_pos h1, show (c.sized k).inDefs = c.inDefs from rfl]
    split <;> exact ⟨k, rfl⟩
  rw [if_neg h1, if_neg h1]
  by_cases h1 : name = "mask".toList
  · rw [if_pos h1, if_pos h1, show (c.sized k).mask = c.mask from rfl]
    split <;> exact ⟨k, rfl⟩
  rw [if_neg h1, if_neg h1]
  by_cases h1 : name = "title".toList
  · rw [if_pos h1, if_pos h1]; exact ⟨k, rfl⟩
  rw [if_neg h1, if_neg h1]
  by_cases h1 : name = "desc".toList
  · rw [if_pos h1, if_pos h1]; exact ⟨k, rfl⟩
  rw [if_neg h1, if_neg h1]
  by_cases h1 : name = "defs".toList
  · rw [if_pos h1, if_pos h1, show (c.sized k).currentDef = c.currentDef from rfl]
    split <;> exact ⟨k, rfl⟩
  rw [if_neg h1, if_neg h1]
  split <;> exact ⟨k, rfl⟩

theorem readToken_sizeFree (fuel : Nat) (t : Token) : SizeFree (readToken fuel t : CM F Unit) := by
  cases t with
  | start name attrs => exact sizeFree_bind (Unsized.free fun _ => pushStyle_unsized attrs) fun _ => readStart_sizeFree fuel name attrs
  | stop name => exact readEnd_sizeFree name
  | other => exact Unsized.free fun _ => unsized_pure _
  | chars x =>
    refine Unsized.free fun k c => ?_
    show readChars x (c.sized k) = ((readChars x c).1, (readChars x c).2.sized k)
    obtain ⟨pc, svg, ss, gr, it, id, ig, df, im, cd, mk⟩ := c
    cases ht : appendLast svg.titles x <;> cases hd : appendLast svg.descriptions x <;> cases it <;> cases id <;>
      simp [readChars, Cursor.sized, ht, hd]

theorem readTokens_sizeFree (fuel : Nat) : ∀ ts : List Token, SizeFree (readTokens fuel ts : CM F Unit)
  | [] => Unsized.free fun _ => unsized_pure _
  | t :: ts => sizeFree_bind (readToken_sizeFree fuel t) fun _ => readTokens_sizeFree fuel ts

end GoSvg
