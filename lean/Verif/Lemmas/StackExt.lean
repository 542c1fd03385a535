import Verif.Lemmas.Defs
import Verif.Lemmas.Walk

/-! The lower styles of the stack play no part while there are others. -/

set_option linter.unusedSectionVars false

namespace GoSvg

open Spec

variable {F : Type} [GoFloat F] [GoEnv]

open SM (get modify throw lift panic diverge forEach)

/-- The same cursor with more styles at the bottom of the stack. -/
def Cursor.ext (R : List (PathStyle F)) (c : Cursor F) : Cursor F := { c with styleStack := c.styleStack ++ R }

/-- A program that does the same with more styles below, unless it runs out of styles. -/
def Above (R : List (PathStyle F)) {α : Type} (m : CM F α) : Prop :=
  ∀ c, (m c).1 ≠ .panic .styleStack → m (c.ext R) = ((m c).1, (m c).2.ext R)

variable {R : List (PathStyle F)} {α β : Type}

theorem above_pure (a : α) : Above R (pure a : CM F α) := fun _ _ => rfl
theorem above_lift (a : Res α) : Above R (lift a : CM F α) := fun _ _ => rfl
theorem above_throw (a : Err) : Above R (throw a : CM F α) := fun _ _ => rfl
theorem above_panic (a : Site) : Above R (panic a : CM F α) := fun _ _ => rfl
theorem above_diverge : Above R (diverge : CM F α) := fun _ _ => rfl

theorem above_modify {f : Cursor F → Cursor F} (h : ∀ c, f (c.ext R) = (f c).ext R) : Above R (modify f) :=
  fun c _ => by rw [SM.modify_run, SM.modify_run, h]

theorem above_bind {m : CM F α} {f : α → CM F β} (h1 : Above R m) (h2 : ∀ a, Above R (f a)) : Above R (m >>= f) := by
  intro c hn
  rw [SM.bind_run] at hn
  rw [SM.bind_run, SM.bind_run, h1 c (by
    intro h
    rcases hr : m c with ⟨r, c1⟩
    rw [hr] at h hn
    cases h
    exact hn rfl)]
  rcases hr : m c with ⟨r, c1⟩
  rw [hr] at hn
  cases r with
  | ok a => exact h2 a c1 hn
  | err e => rfl
  | panic e => rfl
  | diverge => rfl

theorem above_get {f : Cursor F → CM F β} (h1 : ∀ c, f (c.ext R) = f c) (h2 : ∀ c, Above R (f c)) : Above R (get >>= f) := by
  intro c hn
  rw [SM.bind_run, SM.bind_run, SM.get_run, SM.get_run]
  dsimp only
  rw [h1]
  exact h2 c c hn

theorem above_ite {p : Prop} [Decidable p] {m n : CM F α} (h1 : Above R m) (h2 : Above R n) : Above R (if p then m else n) := by
  split
  · exact h1
  · exact h2

theorem above_onPath (m : PM F α) : Above R (onPath m : CM F α) := by
  intro c hn
  show (match m c.pc with | (r, pc) => (r, ({ c.ext R with pc := pc } : Cursor F))) = _
  unfold onPath
  rcases m c.pc with ⟨r, pc⟩
  rfl

theorem above_attrLoop {step : β → Attr → CM F β} (h : ∀ b a, Above R (step b a)) : ∀ (attrs : List Attr) (b : β), Above R (attrLoop step b attrs)
  | [], b => above_pure b
  | a :: as, b => by rw [attrLoop]; exact above_bind (h b a) fun b' => above_attrLoop h as b'

theorem handleError_above (m : Msg) : Above R (handleError m : CM F Unit) := by
  intro c hn
  unfold handleError
  by_cases h1 : c.pc.errorMode = ErrorMode.strict
  · rw [if_pos h1, if_pos (show (c.ext R).pc.errorMode = ErrorMode.strict from h1)]
  rw [if_neg h1, if_neg (show ¬ (c.ext R).pc.errorMode = ErrorMode.strict from h1)]
  by_cases h2 : c.pc.errorMode = ErrorMode.warn
  · rw [if_pos h2, if_pos (show (c.ext R).pc.errorMode = ErrorMode.warn from h2)]; rfl
  rw [if_neg h2, if_neg (show ¬ (c.ext R).pc.errorMode = ErrorMode.warn from h2)]

theorem transformLoop_above : ∀ (items : List Str) (m1 : Matrix2D F), Above R (transformLoop m1 items)
  | [], m1 => above_pure m1
  | item :: rest, m1 => by
    rw [transformLoop]
    refine above_ite (transformLoop_above rest m1) ?_
    split
    · exact above_ite (above_throw _) (above_bind (above_onPath _) fun _ => above_get (fun _ => rfl) fun _ => above_bind (above_lift _) fun m =>
        transformLoop_above rest m)
    · exact above_throw _

theorem parseTransform_above (v : Str) : Above R (parseTransform v : CM F (Matrix2D F)) := by
  intro c hn
  unfold parseTransform at hn ⊢
  rw [SM.bind_run, SM.get_run] at hn ⊢
  rw [SM.bind_run, SM.get_run]
  dsimp only at hn ⊢
  rw [show (c.ext R).styleStack = c.styleStack ++ R from rfl]
  cases hs : c.styleStack with
  | nil => rw [hs] at hn; exact absurd rfl hn
  | cons top rest => rw [hs] at hn; exact transformLoop_above _ _ c hn

theorem addMask_above (st : PathStyle F) (id : Str) : Above R (addMask st id) := fun _ _ => rfl

theorem runEff_above (st : PathStyle F) (v : Str) (e : Eff F) : Above R (runEff st v e) := by
  cases e with
  | set r => exact above_lift r
  | warn m => exact above_bind (handleError_above m) fun _ => above_pure _
  | transform => exact above_bind (parseTransform_above v) fun _ => above_pure _
  | mask => exact above_bind (above_lift _) fun id => addMask_above st id

theorem readStyleAttr_above (st : PathStyle F) (k v : Str) : Above R (readStyleAttr st k v) := by
  intro c hn
  rw [readStyleAttr_eff] at hn
  rw [readStyleAttr_eff, readStyleAttr_eff]
  exact runEff_above st v (styleEff c.svg st k v) c hn

theorem pairsLoop_above : ∀ (ps : List Str) (st : PathStyle F), Above R (pairsLoop st ps)
  | [], st => above_pure st
  | p :: ps, st => by
    rw [pairsLoop]
    split
    · exact above_bind (readStyleAttr_above st _ _) fun st => pairsLoop_above ps st
    · exact pairsLoop_above ps st

theorem pushStyle_above (attrs : List Attr) : Above R (pushStyle attrs : CM F Unit) := by
  intro c hn
  unfold pushStyle at hn ⊢
  rw [SM.bind_run, SM.get_run] at hn ⊢
  rw [SM.bind_run, SM.get_run]
  dsimp only at hn ⊢
  rw [show (c.ext R).styleStack = c.styleStack ++ R from rfl]
  cases hs : c.styleStack with
  | nil => rw [hs] at hn; exact absurd rfl hn
  | cons top rest =>
    rw [hs] at hn
    exact above_bind (R := R) (pairsLoop_above _ _) (fun st => above_modify (f := fun c => { c with styleStack := st :: c.styleStack }) fun _ => rfl) c hn

theorem popStyle_above : Above R (popStyle : CM F Unit) := by
  intro c hn
  unfold popStyle at hn ⊢
  rw [show (c.ext R).styleStack = c.styleStack ++ R from rfl]
  cases hs : c.styleStack with
  | nil => rw [hs] at hn; exact absurd rfl hn
  | cons top rest => rfl

theorem svgBox_above (wh : F × F) (v : Str) : Above R (svgBox wh v) := by
  intro c hn
  unfold svgBox
  rw [show (c.ext R).pc = c.pc from rfl]
  rcases getPoints v c.pc with ⟨r, pc⟩
  dsimp only
  split
  · cases r <;> rfl
  · rfl

theorem svgF_above (attrs : List Attr) : Above R (svgF attrs : CM F Unit) := by
  unfold svgF
  refine above_bind (above_modify fun _ => rfl) fun _ => above_bind (above_attrLoop (fun wh a => ?_) _ _) fun wh => above_modify fun _ => rfl
  unfold svgAttr
  exact above_ite (svgBox_above wh _) (above_ite (above_bind (above_modify fun _ => rfl) fun _ => above_bind (above_lift _) fun _ => above_pure _)
    (above_ite (above_bind (above_modify fun _ => rfl) fun _ => above_bind (above_lift _) fun _ => above_pure _) (above_pure _)))

theorem rectF_above (fuel : Nat) (attrs : List Attr) : Above R (rectF fuel attrs : CM F Unit) := by
  unfold rectF
  refine above_get (fun _ => rfl) fun c => above_bind (above_lift _) fun v => ?_
  split
  · exact above_diverge
  · exact above_modify fun _ => rfl

theorem circleF_above (attrs : List Attr) : Above R (circleF attrs : CM F Unit) := by
  unfold circleF
  exact above_get (fun _ => rfl) fun c => above_bind (above_lift _) fun v => above_ite (above_pure _) (above_modify fun _ => rfl)

theorem lineF_above (attrs : List Attr) : Above R (lineF attrs : CM F Unit) := by
  unfold lineF
  exact above_get (fun _ => rfl) fun c => above_bind (above_lift _) fun v => above_modify fun _ => rfl

theorem polyAttr_above (u : Unit) (a : Attr) : Above R (polyAttr u a : CM F Unit) := by
  unfold polyAttr
  refine above_ite (fun c _ => ?_) (above_pure _)
  rw [show (c.ext R).pc = c.pc from rfl]
  rcases getPoints a.value c.pc with ⟨r, pc⟩
  dsimp only
  split <;> rfl

theorem polylineF_above (attrs : List Attr) : Above R (polylineF attrs : CM F Unit) := by
  unfold polylineF
  exact above_bind (above_attrLoop polyAttr_above _ _) fun _ => above_modify fun _ => rfl

theorem polygonF_above (attrs : List Attr) : Above R (polygonF attrs : CM F Unit) := by
  intro c hn
  unfold polygonF at hn ⊢
  rw [polylineF_above attrs c (by
    intro h
    rcases hr : polylineF attrs c with ⟨r, d⟩
    rw [hr] at h hn
    dsimp only at h
    subst h
    exact hn rfl)]
  rcases polylineF attrs c with ⟨r, d⟩
  have h' : (if (d.ext R).pc.points.length > 4 then ({ d.ext R with pc := (d.ext R).pc.addOps [.close] } : Cursor F) else d.ext R) =
      (if d.pc.points.length > 4 then ({ d with pc := d.pc.addOps [.close] } : Cursor F) else d).ext R := by
    rw [show (d.ext R).pc.points = d.pc.points from rfl]
    split <;> rfl
  cases r with
  | ok _ => exact congrArg (Prod.mk _) h'
  | err _ => exact congrArg (Prod.mk _) h'
  | panic _ => rfl
  | diverge => rfl

theorem pathF_above (attrs : List Attr) : Above R (pathF attrs : CM F Unit) := by
  refine above_attrLoop (fun u a => ?_) _ _
  unfold pathAttr
  exact above_ite (above_onPath _) (above_pure _)

theorem modifyGrad_above (f : Gradient F → Gradient F) : Above R (modifyGrad f) := by
  intro c hn
  unfold modifyGrad
  rw [show (c.ext R).grad = c.grad from rfl]
  split <;> rfl

theorem setGradID_above (id : Str) : Above R (setGradID id : CM F Unit) := by
  intro c hn
  unfold setGradID
  rw [show (c.ext R).grad = c.grad from rfl]
  split <;> rfl

theorem currentGrad_above : Above R (currentGrad : CM F (Gradient F)) := by
  intro c hn
  unfold currentGrad
  rw [show (c.ext R).grad = c.grad from rfl, show (c.ext R).svg.gradHeap = c.svg.gradHeap from rfl]
  split <;> rfl

theorem readGradAttr_above (a : Attr) : Above R (readGradAttr a : CM F Unit) := by
  unfold readGradAttr
  refine above_ite (above_bind (parseTransform_above _) fun _ => modifyGrad_above _) (above_ite ?_ (above_ite ?_ (above_pure _)))
  · exact above_ite (modifyGrad_above _) (above_ite (modifyGrad_above _) (above_pure _))
  · exact above_ite (modifyGrad_above _) (above_ite (modifyGrad_above _) (above_ite (modifyGrad_above _) (above_pure _)))

theorem linAttr_above (d : LinStrs) (a : Attr) : Above R (linAttr d a : CM F LinStrs) := by
  unfold linAttr
  exact above_ite (above_bind (setGradID_above _) fun _ => above_pure _) (above_ite (above_pure _) (above_ite (above_pure _) (above_ite (above_pure _)
    (above_ite (above_pure _) (above_bind (readGradAttr_above _) fun _ => above_pure _)))))

theorem radAttr_above (d : RadStrs) (a : Attr) : Above R (radAttr d a : CM F RadStrs) := by
  unfold radAttr
  exact above_ite (above_bind (setGradID_above _) fun _ => above_pure _) (above_ite (above_pure _) (above_ite (above_pure _) (above_ite (above_pure _)
    (above_ite (above_pure _) (above_ite (above_pure _) (above_ite (above_pure _) (above_bind (readGradAttr_above _) fun _ => above_pure _)))))))

theorem newGrad_above : Above R (newGrad : CM F Unit) := above_modify fun _ => rfl

theorem linearGradientF_above (attrs : List Attr) : Above R (linearGradientF attrs : CM F Unit) := by
  unfold linearGradientF
  exact above_bind newGrad_above fun _ => above_bind (above_attrLoop linAttr_above _ _) fun _ => above_bind currentGrad_above fun _ =>
    above_bind (above_lift _) fun _ => above_bind (above_lift _) fun _ => above_bind (above_lift _) fun _ => above_bind (above_lift _) fun _ =>
    modifyGrad_above _

theorem radialGradientF_above (attrs : List Attr) : Above R (radialGradientF attrs : CM F Unit) := by
  unfold radialGradientF
  exact above_bind newGrad_above fun _ => above_bind (above_attrLoop radAttr_above _ _) fun _ => above_bind currentGrad_above fun _ =>
    above_bind (above_lift _) fun _ => above_bind (above_lift _) fun _ => above_bind (above_lift _) fun _ => above_bind (above_lift _) fun _ =>
    above_bind (above_lift _) fun _ => above_bind (above_lift _) fun _ => modifyGrad_above _

theorem stopF_above (attrs : List Attr) : Above R (stopF attrs : CM F Unit) := by
  unfold stopF
  exact above_get (fun _ => rfl) fun c => above_ite (above_bind (above_lift _) fun _ => modifyGrad_above _) (above_pure _)

theorem maskF_above (attrs : List Attr) : Above R (maskF attrs : CM F Unit) := by
  unfold maskF
  exact above_get (fun _ => rfl) fun c => above_bind (above_lift _) fun v => above_modify fun _ => rfl

theorem descF_above (attrs : List Attr) : Above R (descF attrs : CM F Unit) := by
  exact above_modify fun c => rfl

theorem titleF_above (attrs : List Attr) : Above R (titleF attrs : CM F Unit) := by
  exact above_modify fun c => rfl

/-- Every element function but that of `use`, see below. -/
theorem drawFuncs_above {fuel : Nat} {use : List Attr → CM F Unit} {tag : Str} {df : List Attr → CM F Unit}
    (h : drawFuncs fuel use tag = some df) (hu : tag ≠ "use".toList) (attrs : List Attr) : Above R (df attrs) := by
  unfold drawFuncs at h
  by_cases h1 : tag = "svg".toList
  · rw [if_pos h1] at h; cases h; exact svgF_above attrs
  rw [if_neg h1] at h; clear h1
  by_cases h1 : tag = "g".toList
  · rw [if_pos h1] at h; cases h; exact above_pure _
  rw [if_neg h1] at h; clear h1
  by_cases h1 : tag = "line".toList
  · rw [if_pos h1] at h; cases h; exact lineF_above attrs
  rw [if_neg h1] at h; clear h1
  by_cases h1 : tag = "stop".toList
  · rw [if_pos h1] at h; cases h; exact stopF_above attrs
  rw [if_neg h1] at h; clear h1
  by_cases h1 : tag = "rect".toList
  · rw [if_pos h1] at h; cases h; exact rectF_above fuel attrs
  rw [if_neg h1] at h; clear h1
  by_cases h1 : tag = "circle".toList
  · rw [if_pos h1] at h; cases h; exact circleF_above attrs
  rw [if_neg h1] at h; clear h1
  by_cases h1 : tag = "ellipse".toList
  · rw [if_pos h1] at h; cases h; exact circleF_above attrs
  rw [if_neg h1] at h; clear h1
  by_cases h1 : tag = "polyline".toList
  · rw [if_pos h1] at h; cases h; exact polylineF_above attrs
  rw [if_neg h1] at h; clear h1
  by_cases h1 : tag = "polygon".toList
  · rw [if_pos h1] at h; cases h; exact polygonF_above attrs
  rw [if_neg h1] at h; clear h1
  by_cases h1 : tag = "path".toList
  · rw [if_pos h1] at h; cases h; exact pathF_above attrs
  rw [if_neg h1] at h; clear h1
  by_cases h1 : tag = "desc".toList
  · rw [if_pos h1] at h; cases h; exact descF_above attrs
  rw [if_neg h1] at h; clear h1
  by_cases h1 : tag = "defs".toList
  · rw [if_pos h1] at h; cases h; exact above_modify fun _ => rfl
  rw [if_neg h1] at h; clear h1
  by_cases h1 : tag = "title".toList
  · rw [if_pos h1] at h; cases h; exact titleF_above attrs
  rw [if_neg h1] at h; clear h1
  by_cases h1 : tag = "linearGradient".toList
  · rw [if_pos h1] at h; cases h; exact linearGradientF_above attrs
  rw [if_neg h1] at h; clear h1
  by_cases h1 : tag = "radialGradient".toList
  · rw [if_pos h1] at h; cases h; exact radialGradientF_above attrs
  rw [if_neg h1] at h; clear h1
  by_cases h1 : tag = "mask".toList
  · rw [if_pos h1] at h; cases h; exact maskF_above attrs
  rw [if_neg h1, if_neg hu] at h
  cases h

theorem useLoop_above {draw : Str → Option (List Attr → CM F Unit)} (hd : ∀ tag df, draw tag = some df → ∀ attrs, Above R (df attrs)) :
    ∀ (ds : List Definition), Above R (useLoop draw ds)
  | [] => above_pure _
  | d :: ds => by
    have ih := useLoop_above hd ds
    have hpop : Above R (do popStyle; useLoop draw ds) := above_bind popStyle_above fun _ => ih
    rw [useLoop]
    refine above_ite hpop (above_bind (pushStyle_above _) fun _ => ?_)
    cases hdr : draw d.tag with
    | none => exact handleError_above _
    | some df => exact above_bind (hd _ _ hdr d.attrs) fun _ => above_ite hpop ih

theorem useBody_above {draw : Str → Option (List Attr → CM F Unit)} (hd : ∀ tag df, draw tag = some df → ∀ attrs, Above R (df attrs))
    (href : Str) : Above R (useBody draw href) := by
  have key : ∀ P : CM F Unit, P = (match href with
      | '#' :: id => do
        let c ← get
        match c.svg.defs.find id with
        | none => throw .useNotFound
        | some defs => useLoop draw defs
      | _ => throw .useNotID : CM F Unit) → Above R P := by
    intro P hP
    rw [hP]
    split
    · refine above_get (fun _ => rfl) fun c => ?_
      split
      · exact above_throw _
      · exact useLoop_above hd _
    · exact above_throw _
  unfold useBody
  exact above_ite (above_bind (above_throw _) fun _ => key _ rfl) (key _ rfl)

theorem useF_above : ∀ (fuel : Nat) (attrs : List Attr), Above R (useF fuel attrs : CM F Unit)
  | 0, _ => above_diverge
  | fuel + 1, attrs => by
    rw [useF]
    refine above_get (fun _ => rfl) fun c => above_bind (above_lift _) fun v => ?_
    have hb : Above R (useBody (drawFuncs fuel (useF fuel)) v.href : CM F Unit) := by
      refine useBody_above ?_ _
      intro tag df h attrs
      by_cases hu : tag = "use".toList
      · subst hu; rw [drawFuncs_use] at h; cases h; exact useF_above fuel attrs
      · exact drawFuncs_above h hu attrs
    intro c hn
    unfold withOffset at hn ⊢
    have := hb { c with pc := { c.pc with curX := v.x, curY := v.y } } (by
      intro h
      rcases hr : useBody (drawFuncs fuel (useF fuel)) v.href { c with pc := { c.pc with curX := v.x, curY := v.y } } with ⟨r, d⟩
      rw [hr] at h hn
      dsimp only at h
      subst h
      exact hn rfl)
    show (match useBody (drawFuncs fuel (useF fuel)) v.href (({ c with pc := { c.pc with curX := v.x, curY := v.y } } : Cursor F).ext R) with
        | (r, c) => (r, ({ c with pc := { c.pc with curX := num 0, curY := num 0 } } : Cursor F))) = _
    rw [this]
    rcases useBody (drawFuncs fuel (useF fuel)) v.href { c with pc := { c.pc with curX := v.x, curY := v.y } } with ⟨r2, c2⟩
    rfl

theorem emitPath_above : Above R (emitPath : CM F Unit) := by
  intro c hn
  obtain ⟨pc, svg, ss, gr, it, id, ig, df, im, cd, mk⟩ := c
  obtain ⟨path, x, y, cx, cy, kx, ky, sx, sy, ps, lk, em, ip, lg⟩ := pc
  cases path <;> cases im <;> cases mk <;> cases ss <;> first | rfl | exact absurd rfl hn

theorem readStart_above (fuel : Nat) (name : Str) (attrs : List Attr) : Above R (readStartElement fuel name attrs : CM F Unit) := by
  intro c hn
  unfold readStartElement at hn ⊢
  dsimp only at hn ⊢
  rw [show (c.ext R).inDefs = c.inDefs from rfl, show (c.ext R).inGrad = c.inGrad from rfl]
  split
  · unfold recordDef
    dsimp only
    rw [show (c.ext R).currentDef = c.currentDef from rfl]
    cases hcd : c.currentDef with
    | nil => simp only [Cursor.ext, hcd]
    | cons d ds =>
      dsimp only
      split
      · rfl
      · simp only [Cursor.ext, hcd]
  · rename_i hdefs
    rw [if_neg hdefs] at hn
    cases hd : drawFuncs (F := F) fuel (useF fuel) name with
    | none => rw [hd] at hn; exact handleError_above _ c hn
    | some df =>
      rw [hd] at hn
      dsimp only at hn ⊢
      have hA : Above R (df attrs) := by
        by_cases hu : name = "use".toList
        · subst hu; rw [drawFuncs_use] at hd; cases hd; exact useF_above fuel attrs
        · exact drawFuncs_above hd hu attrs
      rcases hr : df attrs c with ⟨r, c1⟩
      have h1 := hA c
      rw [hr] at h1 hn
      have h2 := emitPath_above (R := R) c1
      cases r with
      | panic s => rw [h1 (fun h => hn h)]
      | diverge => rw [h1 (fun h => nomatch h)]
      | ok u =>
        rw [h1 (fun h => nomatch h)]
        dsimp only at hn ⊢
        rcases he : emitPath c1 with ⟨s, c2⟩
        rw [he] at h2 hn
        cases s with
        | ok v => rw [h2 (fun h => nomatch h)]
        | err e => rw [h2 (fun h => nomatch h)]
        | panic e => rw [h2 (fun h => hn h)]
        | diverge => rw [h2 (fun h => nomatch h)]
      | err u =>
        rw [h1 (fun h => nomatch h)]
        dsimp only at hn ⊢
        rcases he : emitPath c1 with ⟨s, c2⟩
        rw [he] at h2 hn
        cases s with
        | ok v => rw [h2 (fun h => nomatch h)]
        | err e => rw [h2 (fun h => nomatch h)]
        | panic e => rw [h2 (fun h => hn h)]
        | diverge => rw [h2 (fun h => nomatch h)]

theorem readEnd_above (name : Str) : Above R (readEndElement name : CM F Unit) := by
  unfold readEndElement
  refine above_bind popStyle_above fun _ => above_modify fun c => ?_
  by_cases h1 : name = "g".toList
  · rw [if_pos h1, if_pos h1, show (c.ext R).inDefs = c.inDefs from rfl]
    split <;> rfl
  rw [if_neg h1, if_neg h1]
  by_cases h1 : name = "mask".toList
  · rw [if_pos h1, if_pos h1, show (c.ext R).mask = c.mask from rfl]
    split <;> rfl
  rw [if_neg h1, if_neg h1]
  by_cases h1 : name = "title".toList
  · rw [if_pos h1, if_pos h1]; rfl
  rw [if_neg h1, if_neg h1]
  by_cases h1 : name = "desc".toList
  · rw [if_pos h1, if_pos h1]; rfl
  rw [if_neg h1, if_neg h1]
  by_cases h1 : name = "defs".toList
  · rw [if_pos h1, if_pos h1, show (c.ext R).currentDef = c.currentDef from rfl]
    split <;> rfl
  rw [if_neg h1, if_neg h1]
  split <;> rfl

theorem readChars_above (s : Str) : Above R (readChars s : CM F Unit) := by
  intro c _
  unfold readChars
  rw [show (c.ext R).inTitleText = c.inTitleText from rfl, show (c.ext R).svg.titles = c.svg.titles from rfl]
  cases (if c.inTitleText = true then appendLast c.svg.titles s else some c.svg.titles) with
  | none => rfl
  | some titles =>
    dsimp only
    rw [show (c.ext R).inDescText = c.inDescText from rfl, show (c.ext R).svg.descriptions = c.svg.descriptions from rfl]
    cases (if c.inDescText = true then appendLast c.svg.descriptions s else some c.svg.descriptions) <;> rfl

theorem readToken_above (fuel : Nat) (t : Token) : Above R (readToken fuel t : CM F Unit) := by
  cases t with
  | start name attrs => exact above_bind (pushStyle_above attrs) fun _ => readStart_above fuel name attrs
  | stop name => exact readEnd_above name
  | chars s => exact readChars_above s
  | other => exact above_pure _

theorem readTokens_above (fuel : Nat) : ∀ ts : List Token, Above R (readTokens fuel ts : CM F Unit)
  | [] => above_pure _
  | t :: ts => above_bind (readToken_above fuel t) fun _ => readTokens_above fuel ts

end GoSvg
