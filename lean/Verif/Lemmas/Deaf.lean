import Verif.Lemmas.Defs
import Verif.Lemmas.Walk

/-! The texts of a document play no part in the rest of the result. -/

set_option linter.unusedSectionVars false

namespace GoSvg

open Spec

variable {F : Type} [GoFloat F] [GoEnv]

open SM (get modify throw lift panic diverge forEach)

/-- The texts read so far and whether more is to be added to them. -/
structure Words where
  inTitle : Bool
  inDesc : Bool
  titles : List Str
  descs : List Str

/-- Where text is to be added there is a place for it. -/
structure Words.Good (k : Words) : Prop where
  title : k.inTitle = true → k.titles ≠ []
  desc : k.inDesc = true → k.descs ≠ []

/-- The same cursor with other texts. -/
def Cursor.say (k : Words) (c : Cursor F) : Cursor F :=
  { c with inTitleText := k.inTitle, inDescText := k.inDesc, svg := { c.svg with titles := k.titles, descriptions := k.descs } }

/-- A program that does the same whatever the texts are. -/
def Deaf {α : Type} (m : CM F α) : Prop :=
  ∀ (c : Cursor F) (k : Words), k.Good → ∃ k' : Words, k'.Good ∧ m (c.say k) = ((m c).1, (m c).2.say k')

/-- A program that leaves the texts alone. -/
def Mute (k : Words) {α : Type} (m : CM F α) : Prop := ∀ c : Cursor F, m (c.say k) = ((m c).1, (m c).2.say k)

variable {k : Words} {α β : Type}

theorem mute_pure (a : α) : Mute k (pure a : CM F α) := fun _ => rfl
theorem mute_lift (a : Res α) : Mute k (lift a : CM F α) := fun _ => rfl
theorem mute_throw (a : Err) : Mute k (throw a : CM F α) := fun _ => rfl
theorem mute_panic (a : Site) : Mute k (panic a : CM F α) := fun _ => rfl
theorem mute_diverge : Mute k (diverge : CM F α) := fun _ => rfl

theorem mute_modify {f : Cursor F → Cursor F} (h : ∀ c, f (c.say k) = (f c).say k) : Mute k (modify f) :=
  fun c => by rw [SM.modify_run, SM.modify_run, h]

theorem mute_bind {m : CM F α} {f : α → CM F β} (h1 : Mute k m) (h2 : ∀ a, Mute k (f a)) : Mute k (m >>= f) := by
  intro c
  rw [SM.bind_run, SM.bind_run, h1 c]
  rcases m c with ⟨r, c1⟩
  cases r with
  | ok a => exact h2 a c1
  | err e => rfl
  | panic e => rfl
  | diverge => rfl

theorem mute_get {f : Cursor F → CM F β} (h1 : ∀ c, f (c.say k) = f c) (h2 : ∀ c, Mute k (f c)) : Mute k (get >>= f) := by
  intro c
  rw [SM.bind_run, SM.bind_run, SM.get_run, SM.get_run]
  dsimp only
  rw [h1]
  exact h2 c c

theorem mute_ite {p : Prop} [Decidable p] {m n : CM F α} (h1 : Mute k m) (h2 : Mute k n) : Mute k (if p then m else n) := by
  split
  · exact h1
  · exact h2

theorem mute_onPath (m : PM F α) : Mute k (onPath m : CM F α) := by
  intro c
  show (match m c.pc with | (r, pc) => (r, ({ c.say k with pc := pc } : Cursor F))) = _
  unfold onPath
  rcases m c.pc with ⟨r, pc⟩
  rfl

theorem mute_attrLoop {step : β → Attr → CM F β} (h : ∀ b a, Mute k (step b a)) : ∀ (attrs : List Attr) (b : β), Mute k (attrLoop step b attrs)
  | [], b => mute_pure b
  | a :: as, b => by rw [attrLoop]; exact mute_bind (h b a) fun b' => mute_attrLoop h as b'

theorem handleError_mute (m : Msg) : Mute k (handleError m : CM F Unit) := by
  intro c
  unfold handleError
  by_cases h1 : c.pc.errorMode = ErrorMode.strict
  · rw [if_pos h1, if_pos (show (c.say k).pc.errorMode = ErrorMode.strict from h1)]
  rw [if_neg h1, if_neg (show ¬ (c.say k).pc.errorMode = ErrorMode.strict from h1)]
  by_cases h2 : c.pc.errorMode = ErrorMode.warn
  · rw [if_pos h2, if_pos (show (c.say k).pc.errorMode = ErrorMode.warn from h2)]; rfl
  rw [if_neg h2, if_neg (show ¬ (c.say k).pc.errorMode = ErrorMode.warn from h2)]

theorem transformLoop_mute : ∀ (items : List Str) (m1 : Matrix2D F), Mute k (transformLoop m1 items)
  | [], m1 => mute_pure m1
  | item :: rest, m1 => by
    rw [transformLoop]
    refine mute_ite (transformLoop_mute rest m1) ?_
    split
    · exact mute_ite (mute_throw _) (mute_bind (mute_onPath _) fun _ => mute_get (fun _ => rfl) fun _ => mute_bind (mute_lift _) fun m =>
        transformLoop_mute rest m)
    · exact mute_throw _

theorem parseTransform_mute (v : Str) : Mute k (parseTransform v : CM F (Matrix2D F)) := by
  unfold parseTransform
  refine mute_get (fun _ => rfl) fun c => ?_
  split
  · exact mute_panic _
  · exact transformLoop_mute _ _

theorem addMask_mute (st : PathStyle F) (id : Str) : Mute k (addMask st id) := fun _ => rfl

theorem runEff_mute (st : PathStyle F) (v : Str) (e : Eff F) : Mute k (runEff st v e) := by
  cases e with
  | set r => exact mute_lift r
  | warn m => exact mute_bind (handleError_mute m) fun _ => mute_pure _
  | transform => exact mute_bind (parseTransform_mute v) fun _ => mute_pure _
  | mask => exact mute_bind (mute_lift _) fun id => addMask_mute st id

theorem readStyleAttr_mute (st : PathStyle F) (n v : Str) : Mute k (readStyleAttr st n v) := by
  intro c
  rw [readStyleAttr_eff, readStyleAttr_eff, show styleEff (c.say k).svg st n v = styleEff c.svg st n v from rfl]
  exact runEff_mute st v (styleEff c.svg st n v) c

theorem pairsLoop_mute : ∀ (ps : List Str) (st : PathStyle F), Mute k (pairsLoop st ps)
  | [], st => mute_pure st
  | p :: ps, st => by
    rw [pairsLoop]
    split
    · exact mute_bind (readStyleAttr_mute st _ _) fun st => pairsLoop_mute ps st
    · exact pairsLoop_mute ps st

theorem pushStyle_mute (attrs : List Attr) : Mute k (pushStyle attrs : CM F Unit) := by
  unfold pushStyle
  refine mute_get (fun _ => rfl) fun c => ?_
  split
  · exact mute_panic _
  · exact mute_bind (pairsLoop_mute _ _) fun st => mute_modify fun _ => rfl

theorem popStyle_mute : Mute k (popStyle : CM F Unit) := by
  intro c
  unfold popStyle
  rw [show (c.say k).styleStack = c.styleStack from rfl]
  cases c.styleStack <;> rfl

theorem svgBox_mute (wh : F × F) (v : Str) : Mute k (svgBox wh v) := by
  intro c
  unfold svgBox
  rw [show (c.say k).pc = c.pc from rfl]
  rcases getPoints v c.pc with ⟨r, pc⟩
  dsimp only
  split
  · cases r <;> rfl
  · rfl

theorem svgF_mute (attrs : List Attr) : Mute k (svgF attrs : CM F Unit) := by
  unfold svgF
  refine mute_bind (mute_modify fun _ => rfl) fun _ => mute_bind (mute_attrLoop (fun wh a => ?_) _ _) fun wh => mute_modify fun _ => rfl
  unfold svgAttr
  exact mute_ite (svgBox_mute wh _) (mute_ite (mute_bind (mute_modify fun _ => rfl) fun _ => mute_bind (mute_lift _) fun _ => mute_pure _)
    (mute_ite (mute_bind (mute_modify fun _ => rfl) fun _ => mute_bind (mute_lift _) fun _ => mute_pure _) (mute_pure _)))

theorem rectF_mute (fuel : Nat) (attrs : List Attr) : Mute k (rectF fuel attrs : CM F Unit) := by
  unfold rectF
  refine mute_get (fun _ => rfl) fun c => mute_bind (mute_lift _) fun v => ?_
  split
  · exact mute_diverge
  · exact mute_modify fun _ => rfl

theorem circleF_mute (attrs : List Attr) : Mute k (circleF attrs : CM F Unit) := by
  unfold circleF
  exact mute_get (fun _ => rfl) fun c => mute_bind (mute_lift _) fun v => mute_ite (mute_pure _) (mute_modify fun _ => rfl)

theorem lineF_mute (attrs : List Attr) : Mute k (lineF attrs : CM F Unit) := by
  unfold lineF
  exact mute_get (fun _ => rfl) fun c => mute_bind (mute_lift _) fun v => mute_modify fun _ => rfl

theorem polyAttr_mute (u : Unit) (a : Attr) : Mute k (polyAttr u a : CM F Unit) := by
  unfold polyAttr
  refine mute_ite (fun c => ?_) (mute_pure _)
  rw [show (c.say k).pc = c.pc from rfl]
  rcases getPoints a.value c.pc with ⟨r, pc⟩
  dsimp only
  split <;> rfl

theorem polylineF_mute (attrs : List Attr) : Mute k (polylineF attrs : CM F Unit) := by
  unfold polylineF
  exact mute_bind (mute_attrLoop polyAttr_mute _ _) fun _ => mute_modify fun _ => rfl

theorem polygonF_mute (attrs : List Attr) : Mute k (polygonF attrs : CM F Unit) := by
  intro c
  unfold polygonF
  rw [polylineF_mute attrs c]
  rcases polylineF attrs c with ⟨r, d⟩
  have h' : (if (d.say k).pc.points.length > 4 then ({ d.say k with pc := (d.say k).pc.addOps [.close] } : Cursor F) else d.say k) =
      (if d.pc.points.length > 4 then ({ d with pc := d.pc.addOps [.close] } : Cursor F) else d).say k := by
    rw [show (d.say k).pc.points = d.pc.points from rfl]
    split <;> rfl
  cases r with
  | ok _ => exact congrArg (Prod.mk _) h'
  | err _ => exact congrArg (Prod.mk _) h'
  | panic _ => rfl
  | diverge => rfl

theorem pathF_mute (attrs : List Attr) : Mute k (pathF attrs : CM F Unit) := by
  refine mute_attrLoop (fun u a => ?_) _ _
  unfold pathAttr
  exact mute_ite (mute_onPath _) (mute_pure _)

theorem modifyGrad_mute (f : Gradient F → Gradient F) : Mute k (modifyGrad f) := by
  intro c
  unfold modifyGrad
  rw [show (c.say k).grad = c.grad from rfl]
  split <;> rfl

theorem setGradID_mute (id : Str) : Mute k (setGradID id : CM F Unit) := by
  intro c
  unfold setGradID
  rw [show (c.say k).grad = c.grad from rfl]
  split <;> rfl

theorem currentGrad_mute : Mute k (currentGrad : CM F (Gradient F)) := by
  intro c
  unfold currentGrad
  rw [show (c.say k).grad = c.grad from rfl, show (c.say k).svg.gradHeap = c.svg.gradHeap from rfl]
  split <;> rfl

theorem readGradAttr_mute (a : Attr) : Mute k (readGradAttr a : CM F Unit) := by
  unfold readGradAttr
  refine mute_ite (mute_bind (parseTransform_mute _) fun _ => modifyGrad_mute _) (mute_ite ?_ (mute_ite ?_ (mute_pure _)))
  · exact mute_ite (modifyGrad_mute _) (mute_ite (modifyGrad_mute _) (mute_pure _))
  · exact mute_ite (modifyGrad_mute _) (mute_ite (modifyGrad_mute _) (mute_ite (modifyGrad_mute _) (mute_pure _)))

theorem linAttr_mute (d : LinStrs) (a : Attr) : Mute k (linAttr d a : CM F LinStrs) := by
  unfold linAttr
  exact mute_ite (mute_bind (setGradID_mute _) fun _ => mute_pure _) (mute_ite (mute_pure _) (mute_ite (mute_pure _) (mute_ite (mute_pure _)
    (mute_ite (mute_pure _) (mute_bind (readGradAttr_mute _) fun _ => mute_pure _)))))

theorem radAttr_mute (d : RadStrs) (a : Attr) : Mute k (radAttr d a : CM F RadStrs) := by
  unfold radAttr
  exact mute_ite (mute_bind (setGradID_mute _) fun _ => mute_pure _) (mute_ite (mute_pure _) (mute_ite (mute_pure _) (mute_ite (mute_pure _)
    (mute_ite (mute_pure _) (mute_ite (mute_pure _) (mute_ite (mute_pure _) (mute_bind (readGradAttr_mute _) fun _ => mute_pure _)))))))

theorem newGrad_mute : Mute k (newGrad : CM F Unit) := mute_modify fun _ => rfl

theorem linearGradientF_mute (attrs : List Attr) : Mute k (linearGradientF attrs : CM F Unit) := by
  unfold linearGradientF
  exact mute_bind newGrad_mute fun _ => mute_bind (mute_attrLoop linAttr_mute _ _) fun _ => mute_bind currentGrad_mute fun _ =>
    mute_bind (mute_lift _) fun _ => mute_bind (mute_lift _) fun _ => mute_bind (mute_lift _) fun _ => mute_bind (mute_lift _) fun _ =>
    modifyGrad_mute _

theorem radialGradientF_mute (attrs : List Attr) : Mute k (radialGradientF attrs : CM F Unit) := by
  unfold radialGradientF
  exact mute_bind newGrad_mute fun _ => mute_bind (mute_attrLoop radAttr_mute _ _) fun _ => mute_bind currentGrad_mute fun _ =>
    mute_bind (mute_lift _) fun _ => mute_bind (mute_lift _) fun _ => mute_bind (mute_lift _) fun _ => mute_bind (mute_lift _) fun _ =>
    mute_bind (mute_lift _) fun _ => mute_bind (mute_lift _) fun _ => modifyGrad_mute _

theorem stopF_mute (attrs : List Attr) : Mute k (stopF attrs : CM F Unit) := by
  unfold stopF
  exact mute_get (fun _ => rfl) fun c => mute_ite (mute_bind (mute_lift _) fun _ => modifyGrad_mute _) (mute_pure _)

theorem maskF_mute (attrs : List Attr) : Mute k (maskF attrs : CM F Unit) := by
  unfold maskF
  exact mute_get (fun _ => rfl) fun c => mute_bind (mute_lift _) fun v => mute_modify fun _ => rfl

theorem Mute.deaf {m : CM F α} (h : ∀ k, Mute k m) : Deaf m := fun c k hk => ⟨k, hk, h k c⟩

theorem deaf_bind {m : CM F α} {f : α → CM F β} (h1 : Deaf m) (h2 : ∀ a, Deaf (f a)) : Deaf (m >>= f) := by
  intro c k hk
  obtain ⟨k1, g1, e1⟩ := h1 c k hk
  rw [SM.bind_run, SM.bind_run, e1]
  rcases m c with ⟨r, c1⟩
  cases r with
  | ok a => exact h2 a c1 k1 g1
  | err e => exact ⟨k1, g1, rfl⟩
  | panic e => exact ⟨k1, g1, rfl⟩
  | diverge => exact ⟨k1, g1, rfl⟩

theorem deaf_get {f : Cursor F → CM F β} (h1 : ∀ (c : Cursor F) k, f (c.say k) = f c) (h2 : ∀ c, Deaf (f c)) : Deaf (get >>= f) := by
  intro c k hk
  rw [SM.bind_run, SM.bind_run, SM.get_run, SM.get_run]
  dsimp only
  rw [h1]
  exact h2 c c k hk

theorem deaf_ite {p : Prop} [Decidable p] {m n : CM F α} (h1 : Deaf m) (h2 : Deaf n) : Deaf (if p then m else n) := by
  split
  · exact h1
  · exact h2

theorem descF_deaf (attrs : List Attr) : Deaf (descF attrs : CM F Unit) := fun _ k hk =>
  ⟨⟨k.inTitle, true, k.titles, k.descs ++ [[]]⟩, ⟨hk.title, fun _ => by simp⟩, rfl⟩

theorem titleF_deaf (attrs : List Attr) : Deaf (titleF attrs : CM F Unit) := fun _ k hk =>
  ⟨⟨true, k.inDesc, k.titles ++ [[]], k.descs⟩, ⟨fun _ => by simp, hk.desc⟩, rfl⟩

/-- Every element function but that of `use`, see below. -/
theorem drawFuncs_deaf {fuel : Nat} {use : List Attr → CM F Unit} {tag : Str} {df : List Attr → CM F Unit}
    (h : drawFuncs fuel use tag = some df) (hu : tag ≠ "use".toList) (attrs : List Attr) : Deaf (df attrs) := by
  unfold drawFuncs at h
  by_cases h1 : tag = "svg".toList
  · rw [if_pos h1] at h; cases h; exact Mute.deaf fun _ => svgF_mute attrs
  rw [if_neg h1] at h; clear h1
  by_cases h1 : tag = "g".toList
  · rw [if_pos h1] at h; cases h; exact Mute.deaf fun _ => mute_pure _
  rw [if_neg h1] at h; clear h1
  by_cases h1 : tag = "line".toList
  · rw [if_pos h1] at h; cases h; exact Mute.deaf fun _ => lineF_mute attrs
  rw [if_neg h1] at h; clear h1
  by_cases h1 : tag = "stop".toList
  · rw [if_pos h1] at h; cases h; exact Mute.deaf fun _ => stopF_mute attrs
  rw [if_neg h1] at h; clear h1
  by_cases h1 : tag = "rect".toList
  · rw [if_pos h1] at h; cases h; exact Mute.deaf fun _ => rectF_mute fuel attrs
  rw [if_neg h1] at h; clear h1
  by_cases h1 : tag = "circle".toList
  · rw [if_pos h1] at h; cases h; exact Mute.deaf fun _ => circleF_mute attrs
  rw [if_neg h1] at h; clear h1
  by_cases h1 : tag = "ellipse".toList
  · rw [if_pos h1] at h; cases h; exact Mute.deaf fun _ => circleF_mute attrs
  rw [if_neg h1] at h; clear h1
  by_cases h1 : tag = "polyline".toList
  · rw [if_pos h1] at h; cases h; exact Mute.deaf fun _ => polylineF_mute attrs
  rw [if_neg h1] at h; clear h1
  by_cases h1 : tag = "polygon".toList
  · rw [if_pos h1] at h; cases h; exact Mute.deaf fun _ => polygonF_mute attrs
  rw [if_neg h1] at h; clear h1
  by_cases h1 : tag = "path".toList
  · rw [if_pos h1] at h; cases h; exact Mute.deaf fun _ => pathF_mute attrs
  rw [if_neg h1] at h; clear h1
  by_cases h1 : tag = "desc".toList
  · rw [if_pos h1] at h; cases h; exact descF_deaf attrs
  rw [if_neg h1] at h; clear h1
  by_cases h1 : tag = "defs".toList
  · rw [if_pos h1] at h; cases h; exact Mute.deaf fun _ => mute_modify fun _ => rfl
  rw [if_neg h1] at h; clear h1
  by_cases h1 : tag = "title".toList
  · rw [if_pos h1] at h; cases h; exact titleF_deaf attrs
  rw [if_neg h1] at h; clear h1
  by_cases h1 : tag = "linearGradient".toList
  · rw [if_pos h1] at h; cases h; exact Mute.deaf fun _ => linearGradientF_mute attrs
  rw [if_neg h1] at h; clear h1
  by_cases h1 : tag = "radialGradient".toList
  · rw [if_pos h1] at h; cases h; exact Mute.deaf fun _ => radialGradientF_mute attrs
  rw [if_neg h1] at h; clear h1
  by_cases h1 : tag = "mask".toList
  · rw [if_pos h1] at h; cases h; exact Mute.deaf fun _ => maskF_mute attrs
  rw [if_neg h1, if_neg hu] at h
  cases h

theorem useLoop_deaf {draw : Str → Option (List Attr → CM F Unit)} (hd : ∀ tag df, draw tag = some df → ∀ attrs, Deaf (df attrs)) :
    ∀ (ds : List Definition), Deaf (useLoop draw ds)
  | [] => Mute.deaf fun _ => mute_pure _
  | d :: ds => by
    have ih := useLoop_deaf hd ds
    have hpop : Deaf (do popStyle; useLoop draw ds) := deaf_bind (Mute.deaf fun _ => popStyle_mute) fun _ => ih
    rw [useLoop]
    refine deaf_ite hpop (deaf_bind (Mute.deaf fun _ => pushStyle_mute _) fun _ => ?_)
    cases hdr : draw d.tag with
    | none => exact Mute.deaf fun _ => handleError_mute _
    | some df => exact deaf_bind (hd _ _ hdr d.attrs) fun _ => deaf_ite hpop ih

theorem useBody_deaf {draw : Str → Option (List Attr → CM F Unit)} (hd : ∀ tag df, draw tag = some df → ∀ attrs, Deaf (df attrs))
    (href : Str) : Deaf (useBody draw href) := by
  have key : ∀ P : CM F Unit, P = (match href with
      | '#' :: id => do
        let c ← get
        match c.svg.defs.find id with
        | none => throw .useNotFound
        | some defs => useLoop draw defs
      | _ => throw .useNotID : CM F Unit) → Deaf P := by
    intro P hP
    rw [hP]
    split
    · refine deaf_get (fun _ _ => rfl) fun c => ?_
      split
      · exact Mute.deaf fun _ => mute_throw _
      · exact useLoop_deaf hd _
    · exact Mute.deaf fun _ => mute_throw _
  unfold useBody
  exact deaf_ite (deaf_bind (Mute.deaf fun _ => mute_throw _) fun _ => key _ rfl) (key _ rfl)

theorem useF_deaf : ∀ (fuel : Nat) (attrs : List Attr), Deaf (useF fuel attrs : CM F Unit)
  | 0, _ => Mute.deaf fun _ => mute_diverge
  | fuel + 1, attrs => by
    rw [useF]
    refine deaf_get (fun _ _ => rfl) fun c => deaf_bind (Mute.deaf fun _ => mute_lift _) fun v => ?_
    have hb : Deaf (useBody (drawFuncs fuel (useF fuel)) v.href : CM F Unit) := by
      refine useBody_deaf ?_ _
      intro tag df h attrs
      by_cases hu : tag = "use".toList
      · subst hu; rw [drawFuncs_use] at h; cases h; exact useF_deaf fuel attrs
      · exact drawFuncs_deaf h hu attrs
    intro c k hk
    unfold withOffset
    obtain ⟨k', hk', e⟩ := hb { c with pc := { c.pc with curX := v.x, curY := v.y } } k hk
    refine ⟨k', hk', ?_⟩
    show (match useBody (drawFuncs fuel (useF fuel)) v.href (({ c with pc := { c.pc with curX := v.x, curY := v.y } } : Cursor F).say k) with
        | (r, c) => (r, ({ c with pc := { c.pc with curX := num 0, curY := num 0 } } : Cursor F))) = _
    rw [e]
    rcases useBody (drawFuncs fuel (useF fuel)) v.href { c with pc := { c.pc with curX := v.x, curY := v.y } } with ⟨r2, c2⟩
    rfl

theorem emitPath_mute : Mute k (emitPath : CM F Unit) := by
  intro c
  obtain ⟨pc, svg, ss, gr, it, id, ig, df, im, cd, mk⟩ := c
  obtain ⟨path, x, y, cx, cy, kx, ky, sx, sy, ps, lk, em, ip, lg⟩ := pc
  cases path <;> cases im <;> cases mk <;> cases ss <;> rfl

theorem readStart_deaf (fuel : Nat) (name : Str) (attrs : List Attr) : Deaf (readStartElement fuel name attrs : CM F Unit) := by
  intro c k hk
  unfold readStartElement
  dsimp only
  rw [show (c.say k).inDefs = c.inDefs from rfl, show (c.say k).inGrad = c.inGrad from rfl]
  split
  · refine ⟨k, hk, ?_⟩
    unfold recordDef
    dsimp only
    rw [show (c.say k).currentDef = c.currentDef from rfl]
    cases hcd : c.currentDef with
    | nil => simp only [Cursor.say, hcd]
    | cons d ds =>
      dsimp only
      split
      · rfl
      · simp only [Cursor.say, hcd]
  · cases hd : drawFuncs (F := F) fuel (useF fuel) name with
    | none => exact ⟨k, hk, handleError_mute _ c⟩
    | some df =>
      dsimp only
      have hA : Deaf (df attrs) := by
        by_cases hu : name = "use".toList
        · subst hu; rw [drawFuncs_use] at hd; cases hd; exact useF_deaf fuel attrs
        · exact drawFuncs_deaf hd hu attrs
      obtain ⟨k1, hk1, h1⟩ := hA c k hk
      refine ⟨k1, hk1, ?_⟩
      rw [h1]
      rcases df attrs c with ⟨r, c1⟩
      have h2 := emitPath_mute (k := k1) c1
      cases r with
      | panic s => rfl
      | diverge => rfl
      | ok u =>
        dsimp only
        rw [h2]
        rcases emitPath c1 with ⟨s, c2⟩
        cases s <;> rfl
      | err u =>
        dsimp only
        rw [h2]
        rcases emitPath c1 with ⟨s, c2⟩
        cases s <;> rfl

theorem readEnd_deaf (name : Str) : Deaf (readEndElement name : CM F Unit) := by
  unfold readEndElement
  refine deaf_bind (Mute.deaf fun _ => popStyle_mute) fun _ c k hk => ?_
  rw [SM.modify_run, SM.modify_run]
  by_cases h1 : name = "g".toList
  · rw [if_pos h1, if_pos h1, show (c.say k).inDefs = c.inDefs from rfl]
    split <;> exact ⟨k, hk, rfl⟩
  rw [if_neg h1, if_neg h1]
  by_cases h1 : name = "mask".toList
  · rw [if_pos h1, if_pos h1, show (c.say k).mask = c.mask from rfl]
    split <;> exact ⟨k, hk, rfl⟩
  rw [if_neg h1, if_neg h1]
  by_cases h1 : name = "title".toList
  · rw [if_pos h1, if_pos h1]; exact ⟨⟨false, k.inDesc, k.titles, k.descs⟩, ⟨fun h => (nomatch h), hk.desc⟩, rfl⟩
  rw [if_neg h1, if_neg h1]
  by_cases h1 : name = "desc".toList
  · rw [if_pos h1, if_pos h1]; exact ⟨⟨k.inTitle, false, k.titles, k.descs⟩, ⟨hk.title, fun h => (nomatch h)⟩, rfl⟩
  rw [if_neg h1, if_neg h1]
  by_cases h1 : name = "defs".toList
  · rw [if_pos h1, if_pos h1, show (c.say k).currentDef = c.currentDef from rfl]
    split <;> exact ⟨k, hk, rfl⟩
  rw [if_neg h1, if_neg h1]
  split <;> exact ⟨k, hk, rfl⟩

theorem appendLast_fill {ts : List Str} (h : ts ≠ []) (s : Str) : ∃ us, appendLast ts s = some us ∧ us ≠ [] := by
  induction ts with
  | nil => exact absurd rfl h
  | cons t ts ih =>
    cases ts with
    | nil => exact ⟨_, rfl, by simp⟩
    | cons u ts =>
      obtain ⟨us, e, -⟩ := ih (by simp)
      exact ⟨t :: us, by rw [appendLast, e]; rfl, by simp⟩

/-- Text is added to the texts only. -/
theorem readChars_say (s : Str) (c : Cursor F) {k : Words} (hk : k.Good) : ∃ k' : Words, k'.Good ∧ readChars s (c.say k) = (.ok (), c.say k') := by
  obtain ⟨it, id, ts, ds⟩ := k
  unfold readChars
  have h1 : ∃ us, (if it = true then appendLast ts s else some ts) = some us ∧ (it = true → us ≠ []) := by
    cases it with
    | false => exact ⟨ts, rfl, fun h => (nomatch h)⟩
    | true =>
      obtain ⟨us, e, h⟩ := appendLast_fill (hk.title rfl) s
      exact ⟨us, e, fun _ => h⟩
  have h2 : ∃ us, (if id = true then appendLast ds s else some ds) = some us ∧ (id = true → us ≠ []) := by
    cases id with
    | false => exact ⟨ds, rfl, fun h => (nomatch h)⟩
    | true =>
      obtain ⟨us, e, h⟩ := appendLast_fill (hk.desc rfl) s
      exact ⟨us, e, fun _ => h⟩
  obtain ⟨us, e1, g1⟩ := h1
  obtain ⟨vs, e2, g2⟩ := h2
  refine ⟨⟨it, id, us, vs⟩, ⟨g1, g2⟩, ?_⟩
  cases it <;> cases id <;> simp_all [Cursor.say]

/-- The same but for the texts. -/
def TextApart (c d : Cursor F) : Prop := ∃ (s : Cursor F) (k1 k2 : Words), k1.Good ∧ k2.Good ∧ c = s.say k1 ∧ d = s.say k2

theorem Deaf.apart {m : CM F α} (h : Deaf m) {c d : Cursor F} (hc : TextApart c d) : (m c).1 = (m d).1 ∧ TextApart (m c).2 (m d).2 := by
  obtain ⟨s, k1, k2, g1, g2, rfl, rfl⟩ := hc
  obtain ⟨l1, i1, e1⟩ := h s k1 g1
  obtain ⟨l2, i2, e2⟩ := h s k2 g2
  rw [e1, e2]
  exact ⟨rfl, _, l1, l2, i1, i2, rfl, rfl⟩

theorem readToken_apart (fuel : Nat) (t : Token) {c d : Cursor F} (hc : TextApart c d) :
    (readToken fuel t c).1 = (readToken fuel t d).1 ∧ TextApart (readToken fuel t c).2 (readToken fuel t d).2 := by
  cases t with
  | start name attrs => exact (deaf_bind (Mute.deaf fun _ => pushStyle_mute attrs) fun _ => readStart_deaf fuel name attrs).apart hc
  | stop name => exact (readEnd_deaf name).apart hc
  | other => exact ⟨rfl, hc⟩
  | chars x =>
    obtain ⟨s, k1, k2, g1, g2, rfl, rfl⟩ := hc
    obtain ⟨l1, i1, e1⟩ := readChars_say x s g1
    obtain ⟨l2, i2, e2⟩ := readChars_say x s g2
    rw [readToken, e1, e2]
    exact ⟨rfl, s, l1, l2, i1, i2, rfl, rfl⟩

theorem readTokens_apart (fuel : Nat) : ∀ (ts : List Token) {c d : Cursor F}, TextApart c d →
    (readTokens fuel ts c).1 = (readTokens fuel ts d).1 ∧ TextApart (readTokens fuel ts c).2 (readTokens fuel ts d).2
  | [], _, _, h => ⟨rfl, h⟩
  | t :: ts, c, d, h => by
    obtain ⟨h1, h2⟩ := readToken_apart fuel t h
    rw [readTokens_cons, readTokens_cons, SM.bind_run, SM.bind_run]
    generalize readToken fuel t c = x at h1 h2 ⊢
    generalize readToken fuel t d = y at h1 h2 ⊢
    obtain ⟨r, c1⟩ := x
    obtain ⟨r', d1⟩ := y
    dsimp only at h1 h2 ⊢
    subst h1
    cases r with
    | ok u => exact readTokens_apart fuel ts h2
    | err e => exact ⟨rfl, h2⟩
    | panic e => exact ⟨rfl, h2⟩
    | diverge => exact ⟨rfl, h2⟩

end GoSvg
