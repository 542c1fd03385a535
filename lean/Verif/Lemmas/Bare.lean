import Verif.Spec.Bare
import Verif.Lemmas.Defs
import Verif.Lemmas.Walk

/-! What means nothing plays no part in parsing. -/

set_option linter.unusedSectionVars false

namespace GoSvg

open Spec

variable {F : Type} [GoFloat F] [GoEnv]

open SM (get modify throw lift panic diverge forEach)

/-- A text, or nothing. -/
def textIf (T : Bool) (s : Str) : Str := if T then s else []

theorem textIf_nil (T : Bool) : textIf T [] = [] := by cases T <;> rfl

/-- A definition without the attributes that mean nothing. -/
def Definition.bare (d : Definition) : Definition := { d with attrs := bareAttrs d.tag d.attrs }

/-- A table of definitions without the attributes that mean nothing. -/
def bareDefs (m : GoMap (List Definition)) : GoMap (List Definition) := m.map fun e => (e.1, e.2.map Definition.bare)

/-- The drawing with such definitions, and perhaps without texts. -/
def Svg.bare (T : Bool) (s : Svg F) : Svg F :=
  { s with defs := bareDefs s.defs, titles := s.titles.map (textIf T), descriptions := s.descriptions.map (textIf T) }

/-- The same cursor with such a drawing. -/
def Cursor.bare (T : Bool) (c : Cursor F) : Cursor F :=
  { c with svg := c.svg.bare T, currentDef := c.currentDef.map Definition.bare }

/-- A program that does not look at texts and definitions. -/
def Unread (T : Bool) {α : Type} (m : CM F α) : Prop := ∀ c, m (c.bare T) = ((m c).1, (m c).2.bare T)

variable {T : Bool} {α β : Type}

theorem unread_pure (a : α) : Unread T (pure a : CM F α) := fun _ => rfl
theorem unread_lift (a : Res α) : Unread T (lift a : CM F α) := fun _ => rfl
theorem unread_throw (a : Err) : Unread T (throw a : CM F α) := fun _ => rfl
theorem unread_panic (a : Site) : Unread T (panic a : CM F α) := fun _ => rfl
theorem unread_diverge : Unread T (diverge : CM F α) := fun _ => rfl

theorem unread_modify {f : Cursor F → Cursor F} (h : ∀ c, f (c.bare T) = (f c).bare T) : Unread T (modify f) :=
  fun c => by rw [SM.modify_run, SM.modify_run, h]

theorem unread_bind {m : CM F α} {f : α → CM F β} (h1 : Unread T m) (h2 : ∀ a, Unread T (f a)) : Unread T (m >>= f) := by
  intro c
  rw [SM.bind_run, SM.bind_run, h1 c]
  rcases m c with ⟨r, c1⟩
  cases r with
  | ok a => exact h2 a c1
  | err e => rfl
  | panic e => rfl
  | diverge => rfl

theorem unread_get {f : Cursor F → CM F β} (h1 : ∀ c, f (c.bare T) = f c) (h2 : ∀ c, Unread T (f c)) : Unread T (get >>= f) := by
  intro c
  rw [SM.bind_run, SM.bind_run, SM.get_run, SM.get_run]
  dsimp only
  rw [h1]
  exact h2 c c

theorem unread_ite {p : Prop} [Decidable p] {m n : CM F α} (h1 : Unread T m) (h2 : Unread T n) : Unread T (if p then m else n) := by
  split
  · exact h1
  · exact h2

theorem unread_onPath (m : PM F α) : Unread T (onPath m : CM F α) := by
  intro c
  show (match m c.pc with | (r, pc) => (r, ({ c.bare T with pc := pc } : Cursor F))) = _
  unfold onPath
  rcases m c.pc with ⟨r, pc⟩
  rfl

theorem unread_attrLoop {step : β → Attr → CM F β} (h : ∀ b a, Unread T (step b a)) : ∀ (attrs : List Attr) (b : β), Unread T (attrLoop step b attrs)
  | [], b => unread_pure b
  | a :: as, b => by rw [attrLoop]; exact unread_bind (h b a) fun b' => unread_attrLoop h as b'

theorem handleError_unread (m : Msg) : Unread T (handleError m : CM F Unit) := by
  intro c
  unfold handleError
  by_cases h1 : c.pc.errorMode = ErrorMode.strict
  · rw [if_pos h1, if_pos (show (c.bare T).pc.errorMode = ErrorMode.strict from h1)]
  rw [if_neg h1, if_neg (show ¬ (c.bare T).pc.errorMode = ErrorMode.strict from h1)]
  by_cases h2 : c.pc.errorMode = ErrorMode.warn
  · rw [if_pos h2, if_pos (show (c.bare T).pc.errorMode = ErrorMode.warn from h2)]; rfl
  rw [if_neg h2, if_neg (show ¬ (c.bare T).pc.errorMode = ErrorMode.warn from h2)]

theorem transformLoop_unread : ∀ (items : List Str) (m1 : Matrix2D F), Unread T (transformLoop m1 items)
  | [], m1 => unread_pure m1
  | item :: rest, m1 => by
    rw [transformLoop]
    refine unread_ite (transformLoop_unread rest m1) ?_
    split
    · exact unread_ite (unread_throw _) (unread_bind (unread_onPath _) fun _ => unread_get (fun _ => rfl) fun _ => unread_bind (unread_lift _) fun m =>
        transformLoop_unread rest m)
    · exact unread_throw _

theorem parseTransform_unread (v : Str) : Unread T (parseTransform v : CM F (Matrix2D F)) := by
  unfold parseTransform
  refine unread_get (fun _ => rfl) fun c => ?_
  split
  · exact unread_panic _
  · exact transformLoop_unread _ _

theorem addMask_unread (st : PathStyle F) (id : Str) : Unread T (addMask st id) := fun _ => rfl

theorem runEff_unread (st : PathStyle F) (v : Str) (e : Eff F) : Unread T (runEff st v e) := by
  cases e with
  | set r => exact unread_lift r
  | warn m => exact unread_bind (handleError_unread m) fun _ => unread_pure _
  | transform => exact unread_bind (parseTransform_unread v) fun _ => unread_pure _
  | mask => exact unread_bind (unread_lift _) fun id => addMask_unread st id

theorem readStyleAttr_unread (st : PathStyle F) (k v : Str) : Unread T (readStyleAttr st k v) := by
  intro c
  rw [readStyleAttr_eff, readStyleAttr_eff]
  exact runEff_unread st v (styleEff c.svg st k v) c

theorem pairsLoop_unread : ∀ (ps : List Str) (st : PathStyle F), Unread T (pairsLoop st ps)
  | [], st => unread_pure st
  | p :: ps, st => by
    rw [pairsLoop]
    split
    · exact unread_bind (readStyleAttr_unread st _ _) fun st => pairsLoop_unread ps st
    · exact pairsLoop_unread ps st

theorem pushStyle_unread (attrs : List Attr) : Unread T (pushStyle attrs : CM F Unit) := by
  unfold pushStyle
  refine unread_get (fun _ => rfl) fun c => ?_
  split
  · exact unread_panic _
  · exact unread_bind (pairsLoop_unread _ _) fun _ => unread_modify fun _ => rfl

theorem popStyle_unread : Unread T (popStyle : CM F Unit) := by
  intro c
  unfold popStyle
  rw [show (c.bare T).styleStack = c.styleStack from rfl]
  split <;> rfl

theorem svgBox_unread (wh : F × F) (v : Str) : Unread T (svgBox wh v) := by
  intro c
  unfold svgBox
  rw [show (c.bare T).pc = c.pc from rfl]
  rcases getPoints v c.pc with ⟨r, pc⟩
  dsimp only
  split
  · cases r <;> rfl
  · rfl

theorem svgF_unread (attrs : List Attr) : Unread T (svgF attrs : CM F Unit) := by
  unfold svgF
  refine unread_bind (unread_modify fun _ => rfl) fun _ => unread_bind (unread_attrLoop (fun wh a => ?_) _ _) fun wh => unread_modify fun _ => rfl
  unfold svgAttr
  exact unread_ite (svgBox_unread wh _) (unread_ite (unread_bind (unread_modify fun _ => rfl) fun _ => unread_bind (unread_lift _) fun _ => unread_pure _)
    (unread_ite (unread_bind (unread_modify fun _ => rfl) fun _ => unread_bind (unread_lift _) fun _ => unread_pure _) (unread_pure _)))

theorem rectF_unread (fuel : Nat) (attrs : List Attr) : Unread T (rectF fuel attrs : CM F Unit) := by
  unfold rectF
  refine unread_get (fun _ => rfl) fun c => unread_bind (unread_lift _) fun v => ?_
  split
  · exact unread_diverge
  · exact unread_modify fun _ => rfl

theorem circleF_unread (attrs : List Attr) : Unread T (circleF attrs : CM F Unit) := by
  unfold circleF
  exact unread_get (fun _ => rfl) fun c => unread_bind (unread_lift _) fun v => unread_ite (unread_pure _) (unread_modify fun _ => rfl)

theorem lineF_unread (attrs : List Attr) : Unread T (lineF attrs : CM F Unit) := by
  unfold lineF
  exact unread_get (fun _ => rfl) fun c => unread_bind (unread_lift _) fun v => unread_modify fun _ => rfl

theorem polyAttr_unread (u : Unit) (a : Attr) : Unread T (polyAttr u a : CM F Unit) := by
  unfold polyAttr
  refine unread_ite (fun c => ?_) (unread_pure _)
  rw [show (c.bare T).pc = c.pc from rfl]
  rcases getPoints a.value c.pc with ⟨r, pc⟩
  dsimp only
  split <;> rfl

theorem polylineF_unread (attrs : List Attr) : Unread T (polylineF attrs : CM F Unit) := by
  unfold polylineF
  exact unread_bind (unread_attrLoop polyAttr_unread _ _) fun _ => unread_modify fun _ => rfl

theorem polygonF_unread (attrs : List Attr) : Unread T (polygonF attrs : CM F Unit) := by
  intro c
  unfold polygonF
  rw [polylineF_unread attrs c]
  rcases polylineF attrs c with ⟨r, d⟩
  have h' : (if (d.bare T).pc.points.length > 4 then ({ d.bare T with pc := (d.bare T).pc.addOps [.close] } : Cursor F) else d.bare T) =
      (if d.pc.points.length > 4 then ({ d with pc := d.pc.addOps [.close] } : Cursor F) else d).bare T := by
    rw [show (d.bare T).pc.points = d.pc.points from rfl]
    split <;> rfl
  cases r with
  | ok _ => exact congrArg (Prod.mk _) h'
  | err _ => exact congrArg (Prod.mk _) h'
  | panic _ => rfl
  | diverge => rfl

theorem pathF_unread (attrs : List Attr) : Unread T (pathF attrs : CM F Unit) := by
  refine unread_attrLoop (fun u a => ?_) _ _
  unfold pathAttr
  exact unread_ite (unread_onPath _) (unread_pure _)

theorem modifyGrad_unread (f : Gradient F → Gradient F) : Unread T (modifyGrad f) := by
  intro c
  unfold modifyGrad
  rw [show (c.bare T).grad = c.grad from rfl]
  split <;> rfl

theorem setGradID_unread (id : Str) : Unread T (setGradID id : CM F Unit) := by
  intro c
  unfold setGradID
  rw [show (c.bare T).grad = c.grad from rfl]
  split <;> rfl

theorem currentGrad_unread : Unread T (currentGrad : CM F (Gradient F)) := by
  intro c
  unfold currentGrad
  rw [show (c.bare T).grad = c.grad from rfl, show (c.bare T).svg.gradHeap = c.svg.gradHeap from rfl]
  split <;> rfl

theorem readGradAttr_unread (a : Attr) : Unread T (readGradAttr a : CM F Unit) := by
  unfold readGradAttr
  refine unread_ite (unread_bind (parseTransform_unread _) fun _ => modifyGrad_unread _) (unread_ite ?_ (unread_ite ?_ (unread_pure _)))
  · exact unread_ite (modifyGrad_unread _) (unread_ite (modifyGrad_unread _) (unread_pure _))
  · exact unread_ite (modifyGrad_unread _) (unread_ite (modifyGrad_unread _) (unread_ite (modifyGrad_unread _) (unread_pure _)))

theorem linAttr_unread (d : LinStrs) (a : Attr) : Unread T (linAttr d a : CM F LinStrs) := by
  unfold linAttr
  exact unread_ite (unread_bind (setGradID_unread _) fun _ => unread_pure _) (unread_ite (unread_pure _) (unread_ite (unread_pure _) (unread_ite (unread_pure _)
    (unread_ite (unread_pure _) (unread_bind (readGradAttr_unread _) fun _ => unread_pure _)))))

theorem radAttr_unread (d : RadStrs) (a : Attr) : Unread T (radAttr d a : CM F RadStrs) := by
  unfold radAttr
  exact unread_ite (unread_bind (setGradID_unread _) fun _ => unread_pure _) (unread_ite (unread_pure _) (unread_ite (unread_pure _) (unread_ite (unread_pure _)
    (unread_ite (unread_pure _) (unread_ite (unread_pure _) (unread_ite (unread_pure _) (unread_bind (readGradAttr_unread _) fun _ => unread_pure _)))))))

theorem newGrad_unread : Unread T (newGrad : CM F Unit) := unread_modify fun _ => rfl

theorem linearGradientF_unread (attrs : List Attr) : Unread T (linearGradientF attrs : CM F Unit) := by
  unfold linearGradientF
  exact unread_bind newGrad_unread fun _ => unread_bind (unread_attrLoop linAttr_unread _ _) fun _ => unread_bind currentGrad_unread fun _ =>
    unread_bind (unread_lift _) fun _ => unread_bind (unread_lift _) fun _ => unread_bind (unread_lift _) fun _ => unread_bind (unread_lift _) fun _ =>
    modifyGrad_unread _

theorem radialGradientF_unread (attrs : List Attr) : Unread T (radialGradientF attrs : CM F Unit) := by
  unfold radialGradientF
  exact unread_bind newGrad_unread fun _ => unread_bind (unread_attrLoop radAttr_unread _ _) fun _ => unread_bind currentGrad_unread fun _ =>
    unread_bind (unread_lift _) fun _ => unread_bind (unread_lift _) fun _ => unread_bind (unread_lift _) fun _ => unread_bind (unread_lift _) fun _ =>
    unread_bind (unread_lift _) fun _ => unread_bind (unread_lift _) fun _ => modifyGrad_unread _

theorem stopF_unread (attrs : List Attr) : Unread T (stopF attrs : CM F Unit) := by
  unfold stopF
  exact unread_get (fun _ => rfl) fun c => unread_ite (unread_bind (unread_lift _) fun _ => modifyGrad_unread _) (unread_pure _)

theorem maskF_unread (attrs : List Attr) : Unread T (maskF attrs : CM F Unit) := by
  unfold maskF
  exact unread_get (fun _ => rfl) fun c => unread_bind (unread_lift _) fun v => unread_modify fun _ => rfl

theorem descF_unread (attrs : List Attr) : Unread T (descF attrs : CM F Unit) := by
  refine unread_modify fun c => ?_
  simp only [Cursor.bare, Svg.bare, List.map_append, List.map_cons, List.map_nil, textIf_nil]

theorem titleF_unread (attrs : List Attr) : Unread T (titleF attrs : CM F Unit) := by
  refine unread_modify fun c => ?_
  simp only [Cursor.bare, Svg.bare, List.map_append, List.map_cons, List.map_nil, textIf_nil]

/-- Every element function but that of `use`, see below. -/
theorem drawFuncs_unread {fuel : Nat} {use : List Attr → CM F Unit} {tag : Str} {df : List Attr → CM F Unit}
    (h : drawFuncs fuel use tag = some df) (hu : tag ≠ "use".toList) (attrs : List Attr) : Unread T (df attrs) := by
  unfold drawFuncs at h
  by_cases h1 : tag = "svg".toList
  · rw [if_pos h1] at h; cases h; exact svgF_unread attrs
  rw [if_neg h1] at h; clear h1
  by_cases h1 : tag = "g".toList
  · rw [if_pos h1] at h; cases h; exact unread_pure _
  rw [if_neg h1] at h; clear h1
  by_cases h1 : tag = "line".toList
  · rw [if_pos h1] at h; cases h; exact lineF_unread attrs
  rw [if_neg h1] at h; clear h1
  by_cases h1 : tag = "stop".toList
  · rw [if_pos h1] at h; cases h; exact stopF_unread attrs
  rw [if_neg h1] at h; clear h1
  by_cases h1 : tag = "rect".toList
  · rw [if_pos h1] at h; cases h; exact rectF_unread fuel attrs
  rw [if_neg h1] at h; clear h1
  by_cases h1 : tag = "circle".toList
  · rw [if_pos h1] at h; cases h; exact circleF_unread attrs
  rw [if_neg h1] at h; clear h1
  by_cases h1 : tag = "ellipse".toList
  · rw [if_pos h1] at h; cases h; exact circleF_unread attrs
  rw [if_neg h1] at h; clear h1
  by_cases h1 : tag = "polyline".toList
  · rw [if_pos h1] at h; cases h; exact polylineF_unread attrs
  rw [if_neg h1] at h; clear h1
  by_cases h1 : tag = "polygon".toList
  · rw [if_pos h1] at h; cases h; exact polygonF_unread attrs
  rw [if_neg h1] at h; clear h1
  by_cases h1 : tag = "path".toList
  · rw [if_pos h1] at h; cases h; exact pathF_unread attrs
  rw [if_neg h1] at h; clear h1
  by_cases h1 : tag = "desc".toList
  · rw [if_pos h1] at h; cases h; exact descF_unread attrs
  rw [if_neg h1] at h; clear h1
  by_cases h1 : tag = "defs".toList
  · rw [if_pos h1] at h; cases h; exact unread_modify fun _ => rfl
  rw [if_neg h1] at h; clear h1
  by_cases h1 : tag = "title".toList
  · rw [if_pos h1] at h; cases h; exact titleF_unread attrs
  rw [if_neg h1] at h; clear h1
  by_cases h1 : tag = "linearGradient".toList
  · rw [if_pos h1] at h; cases h; exact linearGradientF_unread attrs
  rw [if_neg h1] at h; clear h1
  by_cases h1 : tag = "radialGradient".toList
  · rw [if_pos h1] at h; cases h; exact radialGradientF_unread attrs
  rw [if_neg h1] at h; clear h1
  by_cases h1 : tag = "mask".toList
  · rw [if_pos h1] at h; cases h; exact maskF_unread attrs
  rw [if_neg h1, if_neg hu] at h
  cases h

end GoSvg
