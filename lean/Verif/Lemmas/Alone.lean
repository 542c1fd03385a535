import Verif.Lemmas.Defs
import Verif.Lemmas.PathSim
import Verif.Props.PathData
import Verif.Spec.Attrs

/-! What an element leaves behind plays no part in what comes after it. -/

set_option linter.unusedSectionVars false

namespace GoSvg

open Spec

variable {F : Type} [GoFloat F] [GoEnv]

open SM (get modify throw lift panic diverge forEach)

/-- What an element leaves behind: paths, messages, and the numbers and places that were read last. -/
structure Past (F : Type) where
  paths : List (SvgPath F)
  log : List Msg
  pc : PathCursor F

/-- The same cursor with something that was left behind before. -/
def Cursor.behind (k : Past F) (c : Cursor F) : Cursor F :=
  { c with
    pc := { k.pc with path := c.pc.path, curX := c.pc.curX, curY := c.pc.curY, errorMode := c.pc.errorMode, log := k.log ++ c.pc.log }
    svg := { c.svg with svgPaths := k.paths ++ c.svg.svgPaths } }

/-- Something else read last. -/
def Past.read (k : Past F) (q : PathCursor F) : Past F := { k with pc := q }

/-- A program that adds to what was left behind, and does the same otherwise. -/
def Alone {α : Type} (m : CM F α) : Prop :=
  ∀ (c : Cursor F) (k : Past F), ∃ q : PathCursor F, m (c.behind k) = ((m c).1, (m c).2.behind (k.read q))

variable {α β : Type}

theorem alone_pure (a : α) : Alone (pure a : CM F α) := fun _ k => ⟨k.pc, rfl⟩
theorem alone_lift (a : Res α) : Alone (lift a : CM F α) := fun _ k => ⟨k.pc, rfl⟩
theorem alone_throw (a : Err) : Alone (throw a : CM F α) := fun _ k => ⟨k.pc, rfl⟩
theorem alone_panic (a : Site) : Alone (panic a : CM F α) := fun _ k => ⟨k.pc, rfl⟩
theorem alone_diverge : Alone (diverge : CM F α) := fun _ k => ⟨k.pc, rfl⟩

theorem alone_modify {f : Cursor F → Cursor F} (h : ∀ (c : Cursor F) (k : Past F), f (c.behind k) = (f c).behind k) : Alone (modify f) :=
  fun c k => ⟨k.pc, by rw [SM.modify_run, SM.modify_run, h]; rfl⟩

theorem alone_bind {m : CM F α} {f : α → CM F β} (h1 : Alone m) (h2 : ∀ a, Alone (f a)) : Alone (m >>= f) := by
  intro c k
  obtain ⟨q, e⟩ := h1 c k
  rw [SM.bind_run, SM.bind_run, e]
  rcases m c with ⟨r, c1⟩
  cases r with
  | ok a => exact h2 a c1 (k.read q)
  | err e => exact ⟨q, rfl⟩
  | panic e => exact ⟨q, rfl⟩
  | diverge => exact ⟨q, rfl⟩

theorem alone_get {f : Cursor F → CM F β} (h1 : ∀ (c : Cursor F) (k : Past F), f (c.behind k) = f c) (h2 : ∀ c, Alone (f c)) : Alone (get >>= f) := by
  intro c k
  rw [SM.bind_run, SM.bind_run, SM.get_run, SM.get_run]
  dsimp only
  rw [h1]
  exact h2 c c k

theorem alone_ite {p : Prop} [Decidable p] {m n : CM F α} (h1 : Alone m) (h2 : Alone n) : Alone (if p then m else n) := by
  split
  · exact h1
  · exact h2

theorem alone_attrLoop {step : β → Attr → CM F β} (h : ∀ b a, Alone (step b a)) : ∀ (attrs : List Attr) (b : β), Alone (attrLoop step b attrs)
  | [], b => alone_pure b
  | a :: as, b => by rw [attrLoop]; exact alone_bind (h b a) fun b' => alone_attrLoop h as b'

theorem handleError_alone (m : Msg) : Alone (handleError m : CM F Unit) := by
  intro c k
  refine ⟨k.pc, ?_⟩
  unfold handleError
  by_cases h1 : c.pc.errorMode = ErrorMode.strict
  · rw [if_pos h1, if_pos (show (c.behind k).pc.errorMode = ErrorMode.strict from h1)]; rfl
  rw [if_neg h1, if_neg (show ¬ (c.behind k).pc.errorMode = ErrorMode.strict from h1)]
  by_cases h2 : c.pc.errorMode = ErrorMode.warn
  · rw [if_pos h2, if_pos (show (c.behind k).pc.errorMode = ErrorMode.warn from h2)]
    simp only [Cursor.behind, Past.read, List.append_assoc]
  rw [if_neg h2, if_neg (show ¬ (c.behind k).pc.errorMode = ErrorMode.warn from h2)]; rfl

theorem transformLoop_alone : ∀ (items : List Str) (m1 : Matrix2D F), Alone (transformLoop m1 items)
  | [], m1 => alone_pure m1
  | item :: rest, m1 => by
    rw [transformLoop]
    refine alone_ite (transformLoop_alone rest m1) ?_
    split
    · rename_i name args _
      refine alone_ite (alone_throw _) fun c k => ?_
      obtain ⟨b, ps, hg⟩ := getPoints_frame (F := F) args
      have e : ∀ d : Cursor F, (onPath (getPoints args) : CM F Unit) d = (if b then .ok () else .err .badFloat, { d with pc := { d.pc with points := ps } }) := by
        intro d; unfold onPath; rw [hg]
      rw [SM.bind_run, SM.bind_run, e, e]
      cases b with
      | false => exact ⟨{ k.pc with points := ps }, rfl⟩
      | true =>
        exact (alone_bind (alone_lift _) fun m => transformLoop_alone rest m) { c with pc := { c.pc with points := ps } } (k.read { k.pc with points := ps })
    · exact alone_throw _

theorem svgBox_alone (wh : F × F) (v : Str) : Alone (svgBox wh v) := by
  intro c k
  obtain ⟨b, ps, hg⟩ := getPoints_frame (F := F) v
  refine ⟨{ k.pc with points := ps }, ?_⟩
  unfold svgBox
  rw [hg, hg]
  dsimp only
  split
  · cases b <;> rfl
  · rfl

theorem parseTransform_alone (v : Str) : Alone (parseTransform v : CM F (Matrix2D F)) := by
  unfold parseTransform
  refine alone_get (fun _ _ => rfl) fun c => ?_
  split
  · exact alone_panic _
  · exact transformLoop_alone _ _

theorem addMask_alone (st : PathStyle F) (id : Str) : Alone (addMask st id) := fun _ k => ⟨k.pc, rfl⟩

theorem runEff_alone (st : PathStyle F) (v : Str) (e : Eff F) : Alone (runEff st v e) := by
  cases e with
  | set r => exact alone_lift r
  | warn m => exact alone_bind (handleError_alone m) fun _ => alone_pure _
  | transform => exact alone_bind (parseTransform_alone v) fun _ => alone_pure _
  | mask => exact alone_bind (alone_lift _) fun id => addMask_alone st id

theorem readStyleAttr_alone (st : PathStyle F) (n v : Str) : Alone (readStyleAttr st n v) := by
  intro c k
  rw [readStyleAttr_eff, readStyleAttr_eff, show styleEff (c.behind k).svg st n v = styleEff c.svg st n v from rfl]
  exact runEff_alone st v (styleEff c.svg st n v) c k

theorem pairsLoop_alone : ∀ (ps : List Str) (st : PathStyle F), Alone (pairsLoop st ps)
  | [], st => alone_pure st
  | p :: ps, st => by
    rw [pairsLoop]
    split
    · exact alone_bind (readStyleAttr_alone st _ _) fun st => pairsLoop_alone ps st
    · exact pairsLoop_alone ps st

theorem pushStyle_alone (attrs : List Attr) : Alone (pushStyle attrs : CM F Unit) := by
  unfold pushStyle
  refine alone_get (fun _ _ => rfl) fun c => ?_
  split
  · exact alone_panic _
  · exact alone_bind (pairsLoop_alone _ _) fun st => alone_modify fun _ _ => rfl

theorem popStyle_alone : Alone (popStyle : CM F Unit) := by
  intro c k
  refine ⟨k.pc, ?_⟩
  unfold popStyle
  rw [show (c.behind k).styleStack = c.styleStack from rfl]
  cases c.styleStack <;> rfl

theorem svgF_alone (attrs : List Attr) : Alone (svgF attrs : CM F Unit) := by
  unfold svgF
  refine alone_bind (alone_modify fun _ _ => rfl) fun _ => alone_bind (alone_attrLoop (fun wh a => ?_) _ _) fun wh => alone_modify fun _ _ => rfl
  unfold svgAttr
  exact alone_ite (svgBox_alone wh _) (alone_ite (alone_bind (alone_modify fun _ _ => rfl) fun _ => alone_bind (alone_lift _) fun _ => alone_pure _)
    (alone_ite (alone_bind (alone_modify fun _ _ => rfl) fun _ => alone_bind (alone_lift _) fun _ => alone_pure _) (alone_pure _)))

theorem rectF_alone (fuel : Nat) (attrs : List Attr) : Alone (rectF fuel attrs : CM F Unit) := by
  unfold rectF
  refine alone_get (fun _ _ => rfl) fun c => alone_bind (alone_lift _) fun v => ?_
  split
  · exact alone_diverge
  · exact alone_modify fun _ _ => rfl

theorem circleF_alone (attrs : List Attr) : Alone (circleF attrs : CM F Unit) := by
  unfold circleF
  exact alone_get (fun _ _ => rfl) fun c => alone_bind (alone_lift _) fun v => alone_ite (alone_pure _) fun c' k =>
    ⟨{ k.pc with
        points := [v.rx, v.ry, num 0, num 1, num 0, v.cx +. c'.pc.curX +. v.rx, v.cy +. c'.pc.curY]
        placeX := (ellipseAt (v.cx +. c'.pc.curX) (v.cy +. c'.pc.curY) v.rx v.ry c'.pc).placeX
        placeY := (ellipseAt (v.cx +. c'.pc.curX) (v.cy +. c'.pc.curY) v.rx v.ry c'.pc).placeY }, rfl⟩

theorem lineF_alone (attrs : List Attr) : Alone (lineF attrs : CM F Unit) := by
  unfold lineF
  exact alone_get (fun _ _ => rfl) fun c => alone_bind (alone_lift _) fun v => alone_modify fun _ _ => rfl

/-- With a list of points, what was read before does not matter; and the points are the same afterwards. -/
theorem polyLoop_alone : ∀ (attrs : List Attr) (c : Cursor F) (k : Past F), (∃ v, Given attrs "points" v) ∨ k.pc.points = c.pc.points →
    ∃ q : PathCursor F, attrLoop polyAttr () attrs (c.behind k) = ((attrLoop polyAttr () attrs c).1, (attrLoop polyAttr () attrs c).2.behind (k.read q)) ∧
      q.points = (attrLoop polyAttr () attrs c).2.pc.points
  | [], c, k, h => by
    rcases h with ⟨v, h⟩ | h
    · cases h
    · exact ⟨k.pc, rfl, h⟩
  | a :: as, c, k, h => by
    rw [attrLoop, SM.bind_run, SM.bind_run]
    by_cases ha : a.name = "points".toList
    · obtain ⟨b, ps, hg⟩ := getPoints_frame (F := F) a.value
      have e : ∀ d : Cursor F, polyAttr () a d = (if ps.length % 2 ≠ 0 then .err .oddPoints else if b then .ok () else .err .badFloat,
          { d with pc := { d.pc with points := ps } }) := by
        intro d
        unfold polyAttr
        refine (congrFun (if_pos ha) d).trans ?_
        dsimp only
        rw [hg]
        dsimp only
        split <;> rfl
      rw [e, e]
      by_cases hl : ps.length % 2 ≠ 0
      · rw [if_pos hl]
        exact ⟨{ k.pc with points := ps }, rfl, rfl⟩
      · rw [if_neg hl]
        cases b with
        | false => exact ⟨{ k.pc with points := ps }, rfl, rfl⟩
        | true => exact polyLoop_alone as { c with pc := { c.pc with points := ps } } (k.read { k.pc with points := ps }) (.inr rfl)
    · have e : ∀ d : Cursor F, polyAttr () a d = (.ok (), d) := by
        intro d; unfold polyAttr; exact congrFun (if_neg ha) d
      rw [e, e]
      refine polyLoop_alone as c k (h.imp ?_ id)
      rintro ⟨v, hv⟩
      rcases List.mem_cons.1 hv with h | h
      · exact absurd (by rw [← h]) ha
      · exact ⟨v, h⟩

theorem lineOps_behind (c : Cursor F) (k : Past F) : ∀ pts : List F, lineOps (c.behind k).pc pts = lineOps c.pc pts
  | [] => rfl
  | [_] => rfl
  | x :: y :: r => by rw [lineOps, lineOps, lineOps_behind c k r]; rfl

theorem polylineF_run {attrs : List Attr} (h : ∃ v, Given attrs "points" v) (c : Cursor F) (k : Past F) :
    ∃ q : PathCursor F, polylineF attrs (c.behind k) = ((polylineF attrs c).1, (polylineF attrs c).2.behind (k.read q)) ∧
      q.points = (polylineF attrs c).2.pc.points := by
  obtain ⟨q, e, hq⟩ := polyLoop_alone attrs c k (.inl h)
  unfold polylineF
  rw [SM.bind_run, SM.bind_run, e]
  generalize attrLoop polyAttr () attrs c = y at hq ⊢
  obtain ⟨r, d⟩ := y
  dsimp only at hq
  cases r with
  | err e => exact ⟨q, rfl, hq⟩
  | panic e => exact ⟨q, rfl, hq⟩
  | diverge => exact ⟨q, rfl, hq⟩
  | ok u =>
    refine ⟨q, ?_, ?_⟩
    · dsimp only
      rw [SM.modify_run, SM.modify_run]
      have e1 : (d.behind (k.read q)).pc.points = d.pc.points := hq
      have e2 : polyDraw (d.behind (k.read q)).pc = (({ d with pc := polyDraw d.pc } : Cursor F).behind (k.read q)).pc := by
        unfold polyDraw
        rw [e1]
        split
        · rw [lineOps_behind]; rfl
        · rfl
      rw [e2]
      rfl
    · dsimp only
      rw [SM.modify_run]
      dsimp only
      rw [hq]
      unfold polyDraw
      split <;> rfl

theorem polylineF_alone {attrs : List Attr} (h : ∃ v, Given attrs "points" v) : Alone (polylineF attrs : CM F Unit) := fun c k => by
  obtain ⟨q, e, -⟩ := polylineF_run h c k
  exact ⟨q, e⟩

theorem polygonF_alone {attrs : List Attr} (h : ∃ v, Given attrs "points" v) : Alone (polygonF attrs : CM F Unit) := by
  intro c k
  obtain ⟨q, e, hq⟩ := polylineF_run h c k
  refine ⟨q, ?_⟩
  unfold polygonF
  rw [e]
  generalize polylineF attrs c = y at hq ⊢
  obtain ⟨r, d⟩ := y
  dsimp only at hq
  have h' : (if (d.behind (k.read q)).pc.points.length > 4 then ({ d.behind (k.read q) with pc := (d.behind (k.read q)).pc.addOps [.close] } : Cursor F)
      else d.behind (k.read q)) = (if d.pc.points.length > 4 then ({ d with pc := d.pc.addOps [.close] } : Cursor F) else d).behind (k.read q) := by
    rw [show (d.behind (k.read q)).pc.points = d.pc.points from hq]
    split <;> rfl
  cases r with
  | ok _ => exact congrArg (Prod.mk _) h'
  | err _ => exact congrArg (Prod.mk _) h'
  | panic _ => rfl
  | diverge => rfl

theorem compilePath_alone (d : Str) : Alone (onPath (compilePath d) : CM F Unit) := by
  intro c k
  have hE : (compilePath d (c.behind k).pc).1 = (compilePath d c.pc).1 ∧
      Eqv (c.behind k).pc.log c.pc.log (compilePath d (c.behind k).pc).2 (compilePath d c.pc).2 := by
    rw [compilePath_segs, compilePath_segs]
    exact segs_eqv (segsGo none d) (eqv_init rfl rfl rfl)
  unfold onPath
  generalize compilePath d (c.behind k).pc = x at hE ⊢
  generalize compilePath d c.pc = y at hE ⊢
  obtain ⟨r, p⟩ := x
  obtain ⟨r', p'⟩ := y
  obtain ⟨rfl, -, h1, h2, h3, h4, l, h5, h6⟩ := hE
  refine ⟨p, ?_⟩
  dsimp only at *
  have : p = { p with path := p'.path, curX := p'.curX, curY := p'.curY, errorMode := p'.errorMode, log := k.log ++ p'.log } := by
    rw [← h1, ← h2, ← h3, ← h4, h6, ← List.append_assoc, show k.log ++ c.pc.log = (c.behind k).pc.log from rfl, ← h5]
  conv_lhs => rw [this]
  rfl

theorem pathF_alone (attrs : List Attr) : Alone (pathF attrs : CM F Unit) := by
  refine alone_attrLoop (fun u a => ?_) _ _
  unfold pathAttr
  exact alone_ite (compilePath_alone _) (alone_pure _)

theorem modifyGrad_alone (f : Gradient F → Gradient F) : Alone (modifyGrad f) := by
  intro c k
  refine ⟨k.pc, ?_⟩
  unfold modifyGrad
  rw [show (c.behind k).grad = c.grad from rfl]
  split <;> rfl

theorem setGradID_alone (id : Str) : Alone (setGradID id : CM F Unit) := by
  intro c k
  refine ⟨k.pc, ?_⟩
  unfold setGradID
  rw [show (c.behind k).grad = c.grad from rfl]
  split <;> rfl

theorem currentGrad_alone : Alone (currentGrad : CM F (Gradient F)) := by
  intro c k
  refine ⟨k.pc, ?_⟩
  unfold currentGrad
  rw [show (c.behind k).grad = c.grad from rfl, show (c.behind k).svg.gradHeap = c.svg.gradHeap from rfl]
  split <;> rfl

theorem readGradAttr_alone (a : Attr) : Alone (readGradAttr a : CM F Unit) := by
  unfold readGradAttr
  refine alone_ite (alone_bind (parseTransform_alone _) fun _ => modifyGrad_alone _) (alone_ite ?_ (alone_ite ?_ (alone_pure _)))
  · exact alone_ite (modifyGrad_alone _) (alone_ite (modifyGrad_alone _) (alone_pure _))
  · exact alone_ite (modifyGrad_alone _) (alone_ite (modifyGrad_alone _) (alone_ite (modifyGrad_alone _) (alone_pure _)))

theorem linAttr_alone (d : LinStrs) (a : Attr) : Alone (linAttr d a : CM F LinStrs) := by
  unfold linAttr
  exact alone_ite (alone_bind (setGradID_alone _) fun _ => alone_pure _) (alone_ite (alone_pure _) (alone_ite (alone_pure _) (alone_ite (alone_pure _)
    (alone_ite (alone_pure _) (alone_bind (readGradAttr_alone _) fun _ => alone_pure _)))))

theorem radAttr_alone (d : RadStrs) (a : Attr) : Alone (radAttr d a : CM F RadStrs) := by
  unfold radAttr
  exact alone_ite (alone_bind (setGradID_alone _) fun _ => alone_pure _) (alone_ite (alone_pure _) (alone_ite (alone_pure _) (alone_ite (alone_pure _)
    (alone_ite (alone_pure _) (alone_ite (alone_pure _) (alone_ite (alone_pure _) (alone_bind (readGradAttr_alone _) fun _ => alone_pure _)))))))

theorem newGrad_alone : Alone (newGrad : CM F Unit) := alone_modify fun _ _ => rfl

theorem linearGradientF_alone (attrs : List Attr) : Alone (linearGradientF attrs : CM F Unit) := by
  unfold linearGradientF
  exact alone_bind newGrad_alone fun _ => alone_bind (alone_attrLoop linAttr_alone _ _) fun _ => alone_bind currentGrad_alone fun _ =>
    alone_bind (alone_lift _) fun _ => alone_bind (alone_lift _) fun _ => alone_bind (alone_lift _) fun _ => alone_bind (alone_lift _) fun _ =>
    modifyGrad_alone _

theorem radialGradientF_alone (attrs : List Attr) : Alone (radialGradientF attrs : CM F Unit) := by
  unfold radialGradientF
  exact alone_bind newGrad_alone fun _ => alone_bind (alone_attrLoop radAttr_alone _ _) fun _ => alone_bind currentGrad_alone fun _ =>
    alone_bind (alone_lift _) fun _ => alone_bind (alone_lift _) fun _ => alone_bind (alone_lift _) fun _ => alone_bind (alone_lift _) fun _ =>
    alone_bind (alone_lift _) fun _ => alone_bind (alone_lift _) fun _ => modifyGrad_alone _

theorem stopF_alone (attrs : List Attr) : Alone (stopF attrs : CM F Unit) := by
  unfold stopF
  exact alone_get (fun _ _ => rfl) fun c => alone_ite (alone_bind (alone_lift _) fun _ => modifyGrad_alone _) (alone_pure _)

theorem maskF_alone (attrs : List Attr) : Alone (maskF attrs : CM F Unit) := by
  unfold maskF
  exact alone_get (fun _ _ => rfl) fun c => alone_bind (alone_lift _) fun v => alone_modify fun _ _ => rfl

/-- Every element function but that of `use`, see below. -/
theorem drawFuncs_alone {fuel : Nat} {use : List Attr → CM F Unit} {tag : Str} {df : List Attr → CM F Unit}
    (h : drawFuncs fuel use tag = some df) (hu : tag ≠ "use".toList) {attrs : List Attr}
    (hp : tag = "polyline".toList ∨ tag = "polygon".toList → ∃ v, Given attrs "points" v) : Alone (df attrs) := by
  unfold drawFuncs at h
  by_cases h1 : tag = "svg".toList
  · rw [if_pos h1] at h; cases h; exact svgF_alone attrs
  rw [if_neg h1] at h; clear h1
  by_cases h1 : tag = "g".toList
  · rw [if_pos h1] at h; cases h; exact alone_pure _
  rw [if_neg h1] at h; clear h1
  by_cases h1 : tag = "line".toList
  · rw [if_pos h1] at h; cases h; exact lineF_alone attrs
  rw [if_neg h1] at h; clear h1
  by_cases h1 : tag = "stop".toList
  · rw [if_pos h1] at h; cases h; exact stopF_alone attrs
  rw [if_neg h1] at h; clear h1
  by_cases h1 : tag = "rect".toList
  · rw [if_pos h1] at h; cases h; exact rectF_alone fuel attrs
  rw [if_neg h1] at h; clear h1
  by_cases h1 : tag = "circle".toList
  · rw [if_pos h1] at h; cases h; exact circleF_alone attrs
  rw [if_neg h1] at h; clear h1
  by_cases h1 : tag = "ellipse".toList
  · rw [if_pos h1] at h; cases h; exact circleF_alone attrs
  rw [if_neg h1] at h; clear h1
  by_cases h1 : tag = "polyline".toList
  · rw [if_pos h1] at h; cases h; exact polylineF_alone (hp (.inl h1))
  rw [if_neg h1] at h; clear h1
  by_cases h1 : tag = "polygon".toList
  · rw [if_pos h1] at h; cases h; exact polygonF_alone (hp (.inr h1))
  rw [if_neg h1] at h; clear h1
  by_cases h1 : tag = "path".toList
  · rw [if_pos h1] at h; cases h; exact pathF_alone attrs
  rw [if_neg h1] at h; clear h1
  by_cases h1 : tag = "desc".toList
  · rw [if_pos h1] at h; cases h; exact alone_modify fun _ _ => rfl
  rw [if_neg h1] at h; clear h1
  by_cases h1 : tag = "defs".toList
  · rw [if_pos h1] at h; cases h; exact alone_modify fun _ _ => rfl
  rw [if_neg h1] at h; clear h1
  by_cases h1 : tag = "title".toList
  · rw [if_pos h1] at h; cases h; exact alone_modify fun _ _ => rfl
  rw [if_neg h1] at h; clear h1
  by_cases h1 : tag = "linearGradient".toList
  · rw [if_pos h1] at h; cases h; exact linearGradientF_alone attrs
  rw [if_neg h1] at h; clear h1
  by_cases h1 : tag = "radialGradient".toList
  · rw [if_pos h1] at h; cases h; exact radialGradientF_alone attrs
  rw [if_neg h1] at h; clear h1
  by_cases h1 : tag = "mask".toList
  · rw [if_pos h1] at h; cases h; exact maskF_alone attrs
  rw [if_neg h1, if_neg hu] at h
  cases h

theorem emitPath_alone : Alone (emitPath : CM F Unit) := by
  intro c k
  refine ⟨k.pc, ?_⟩
  obtain ⟨pc, svg, ss, gr, it, id, ig, df, im, cd, mk⟩ := c
  obtain ⟨path, x, y, cx, cy, kx, ky, sx, sy, ps, lk, em, ip, lg⟩ := pc
  cases path <;> cases im <;> cases mk <;> cases ss <;> simp [emitPath, Cursor.behind, Past.read]

/-- A `use` may draw an element of `defs`; a list without points is drawn with the numbers that were read last. -/
def Stands : Token → Prop
  | .start name attrs => name ≠ "use".toList ∧ (name = "polyline".toList ∨ name = "polygon".toList → ∃ v, Given attrs "points" v)
  | _ => True

theorem readStart_alone (fuel : Nat) (name : Str) (attrs : List Attr) (hs : Stands (.start name attrs)) :
    Alone (readStartElement fuel name attrs : CM F Unit) := by
  intro c k
  unfold readStartElement
  dsimp only
  rw [show (c.behind k).inDefs = c.inDefs from rfl, show (c.behind k).inGrad = c.inGrad from rfl]
  split
  · refine ⟨k.pc, ?_⟩
    unfold recordDef
    dsimp only
    rw [show (c.behind k).currentDef = c.currentDef from rfl]
    cases hcd : c.currentDef with
    | nil => simp only [Cursor.behind, Past.read, hcd]
    | cons d ds =>
      dsimp only
      split
      · rfl
      · simp only [Cursor.behind, Past.read, hcd]
  · cases hd : drawFuncs (F := F) fuel (useF fuel) name with
    | none => exact handleError_alone _ c k
    | some df =>
      dsimp only
      obtain ⟨q1, h1⟩ := drawFuncs_alone hd hs.1 hs.2 c k
      rw [h1]
      rcases df attrs c with ⟨r, c1⟩
      obtain ⟨q2, h2⟩ := emitPath_alone c1 (k.read q1)
      cases r with
      | panic s => exact ⟨q1, rfl⟩
      | diverge => exact ⟨q1, rfl⟩
      | ok u =>
        refine ⟨q2, ?_⟩
        dsimp only
        rw [h2]
        rcases emitPath c1 with ⟨s, c2⟩
        cases s <;> rfl
      | err u =>
        refine ⟨q2, ?_⟩
        dsimp only
        rw [h2]
        rcases emitPath c1 with ⟨s, c2⟩
        cases s <;> rfl

theorem readEnd_alone (name : Str) : Alone (readEndElement name : CM F Unit) := by
  unfold readEndElement
  refine alone_bind (popStyle_alone) fun _ => alone_modify fun c k => ?_
  by_cases h1 : name = "g".toList
  · rw [if_pos h1, if_pos h1, show (c.behind k).inDefs = c.inDefs from rfl]
    split <;> rfl
  rw [if_neg h1, if_neg h1]
  by_cases h1 : name = "mask".toList
  · rw [if_pos h1, if_pos h1, show (c.behind k).mask = c.mask from rfl]
    split <;> rfl
  rw [if_neg h1, if_neg h1]
  by_cases h1 : name = "title".toList
  · rw [if_pos h1, if_pos h1]; rfl
  rw [if_neg h1, if_neg h1]
  by_cases h1 : name = "desc".toList
  · rw [if_pos h1, if_pos h1]; rfl
  rw [if_neg h1, if_neg h1]
  by_cases h1 : name = "defs".toList
  · rw [if_pos h1, if_pos h1, show (c.behind k).currentDef = c.currentDef from rfl]
    split <;> rfl
  rw [if_neg h1, if_neg h1]
  split <;> rfl

theorem readChars_alone (s : Str) : Alone (readChars s : CM F Unit) := by
  intro c k
  refine ⟨k.pc, ?_⟩
  unfold readChars
  rw [show (c.behind k).inTitleText = c.inTitleText from rfl, show (c.behind k).svg.titles = c.svg.titles from rfl]
  generalize (if c.inTitleText = true then appendLast c.svg.titles s else some c.svg.titles) = x
  cases x with
  | none => rfl
  | some ts =>
    dsimp only
    rw [show (c.behind k).inDescText = c.inDescText from rfl, show (c.behind k).svg.descriptions = c.svg.descriptions from rfl]
    generalize (if c.inDescText = true then appendLast c.svg.descriptions s else some c.svg.descriptions) = y
    cases y <;> rfl

theorem readToken_alone (fuel : Nat) : ∀ (t : Token), Stands t → Alone (readToken fuel t : CM F Unit)
  | .start name attrs, h => alone_bind (pushStyle_alone attrs) fun _ => readStart_alone fuel name attrs h
  | .stop name, _ => readEnd_alone name
  | .chars s, _ => readChars_alone s
  | .other, _ => alone_pure ()

theorem readTokens_alone (fuel : Nat) : ∀ (ts : List Token), (∀ t ∈ ts, Stands t) → Alone (readTokens fuel ts : CM F Unit)
  | [], _ => alone_pure ()
  | t :: ts, h => alone_bind (readToken_alone fuel t (h t List.mem_cons_self)) fun _ =>
    readTokens_alone fuel ts fun u hu => h u (List.mem_cons_of_mem _ hu)

end GoSvg
