import Verif.Lemmas.Styles
import Verif.Model.Parse

/-! What each element function changes. -/

set_option linter.unusedSectionVars false

namespace GoSvg

variable {F : Type} [GoFloat F] [GoEnv]

open SM (get modify throw lift panic diverge forEach)

/-! ### Programs whose runs keep a relation between the first and the last state -/

section Keeps

variable {σ α β : Type}

/-- Every run of the program, whatever its result, relates the first state to the last. -/
def Keeps (R : σ → σ → Prop) (m : SM σ α) : Prop := ∀ c, R c (m c).2

/-- Reflexive and transitive. -/
structure Pre (R : σ → σ → Prop) : Prop where
  refl : ∀ c, R c c
  trans : ∀ {c d e}, R c d → R d e → R c e

variable {R : σ → σ → Prop}

theorem keeps_pure (h : Pre R) (a : α) : Keeps R (pure a : SM σ α) := fun c => h.refl c
theorem keeps_lift (h : Pre R) (a : Res α) : Keeps R (lift a : SM σ α) := fun c => h.refl c
theorem keeps_throw (h : Pre R) (a : Err) : Keeps R (throw a : SM σ α) := fun c => h.refl c
theorem keeps_panic (h : Pre R) (a : Site) : Keeps R (panic a : SM σ α) := fun c => h.refl c
theorem keeps_diverge (h : Pre R) : Keeps R (diverge : SM σ α) := fun c => h.refl c
theorem keeps_get (h : Pre R) : Keeps R (get : SM σ σ) := fun c => h.refl c
theorem keeps_modify {f : σ → σ} (h : ∀ c, R c (f c)) : Keeps R (modify f) := fun c => h c

theorem keeps_bind (h : Pre R) {m : SM σ α} {f : α → SM σ β} (h1 : Keeps R m) (h2 : ∀ a, Keeps R (f a)) :
    Keeps R (m >>= f) := by
  intro c
  have h1 := h1 c
  rw [SM.bind_run]
  rcases hr : m c with ⟨r, d⟩
  rw [hr] at h1
  cases r with
  | ok a => exact h.trans h1 (h2 a d)
  | err e => exact h1
  | panic s => exact h1
  | diverge => exact h1

theorem keeps_ite {p : Prop} [Decidable p] {m n : SM σ α} (h1 : Keeps R m) (h2 : Keeps R n) : Keeps R (if p then m else n) := by
  split
  · exact h1
  · exact h2

theorem keeps_mono {R' : σ → σ → Prop} {m : SM σ α} (h : Keeps R m) (hR : ∀ c d, R c d → R' c d) : Keeps R' m :=
  fun c => hR _ _ (h c)

end Keeps

theorem keeps_attrLoop {R : Cursor F → Cursor F → Prop} (h : Pre R) {β : Type} {step : β → Attr → CM F β}
    (hs : ∀ b a, Keeps R (step b a)) : ∀ (as : List Attr) (b : β), Keeps R (attrLoop step b as)
  | [], _ => keeps_pure h _
  | a :: as, b => by
    rw [attrLoop]
    exact keeps_bind h (hs b a) fun b' => keeps_attrLoop h hs as b'

/-! ### Relations -/

/-- Messages are only added, and only in warn mode. -/
def LogR (mode : ErrorMode) (l l' : List Msg) : Prop := ∃ d, l' = l ++ d ∧ (mode ≠ .warn → d = [])

theorem logR_refl (m : ErrorMode) (l : List Msg) : LogR m l l := ⟨[], by simp, fun _ => rfl⟩

theorem logR_trans {m : ErrorMode} {l l' l'' : List Msg} (h1 : LogR m l l') (h2 : LogR m l' l'') : LogR m l l'' := by
  obtain ⟨d1, rfl, h1⟩ := h1
  obtain ⟨d2, rfl, h2⟩ := h2
  exact ⟨d1 ++ d2, by simp, fun h => by rw [h1 h, h2 h]; rfl⟩

/-- Drawing: only the path cursor changes, but neither its offset nor the mode. -/
structure DrawR (c c' : Cursor F) : Prop where
  eq : c' = { c with pc := c'.pc }
  curX : c'.pc.curX = c.pc.curX
  curY : c'.pc.curY = c.pc.curY
  mode : c'.pc.errorMode = c.pc.errorMode
  log : LogR c.pc.errorMode c.pc.log c'.pc.log

theorem drawR_pre : Pre (DrawR (F := F)) where
  refl c := ⟨rfl, rfl, rfl, rfl, logR_refl _ _⟩
  trans h1 h2 := ⟨by rw [h2.eq, h1.eq], h2.curX.trans h1.curX, h2.curY.trans h1.curY, h2.mode.trans h1.mode,
    logR_trans h1.log (h1.mode ▸ h2.log)⟩

/-- The root element: size and view box. -/
structure SvgR (c c' : Cursor F) : Prop where
  eq : c' = { c with
    pc := { c.pc with points := c'.pc.points }
    svg := { c.svg with viewBox := c'.svg.viewBox, width := c'.svg.width, height := c'.svg.height } }

theorem svgR_pre : Pre (SvgR (F := F)) where
  refl c := ⟨rfl⟩
  trans h1 h2 := ⟨by rw [h2.eq, h1.eq]⟩

/-- Gradients: the table of gradients and the current one. -/
structure GradR (c c' : Cursor F) : Prop where
  eq : c' = { c with
    pc := { c.pc with points := c'.pc.points }
    svg := { c.svg with grads := c'.svg.grads, gradHeap := c'.svg.gradHeap }
    grad := c'.grad, inGrad := c'.inGrad }
  inGrad : c.inGrad = true → c'.inGrad = true

theorem gradR_pre : Pre (GradR (F := F)) where
  refl c := ⟨rfl, id⟩
  trans h1 h2 := ⟨by rw [h2.eq, h1.eq], fun h => h2.inGrad (h1.inGrad h)⟩

/-! ### Element functions -/

theorem getPoints_keeps (s : Str) : Keeps (fun c c' : PathCursor F => c' = { c with points := c'.points }) (getPoints s) := by
  intro c
  obtain ⟨b, ps, h⟩ := getPoints_frame (F := F) s
  rw [h]

theorem svgBox_keeps (wh : F × F) (v : Str) : Keeps SvgR (svgBox wh v) := by
  intro c
  have h := getPoints_keeps v c.pc
  unfold svgBox
  rcases hr : getPoints v c.pc with ⟨r, pc⟩
  rw [hr] at h
  dsimp only at h ⊢
  have hp : c.pc = { c.pc with points := c.pc.points } := rfl
  split
  · cases r <;> exact ⟨by rw [h]⟩
  · exact ⟨by rw [h]⟩

theorem svgF_keeps (attrs : List Attr) : Keeps SvgR (svgF attrs : CM F Unit) := by
  unfold svgF
  refine keeps_bind svgR_pre (keeps_modify fun c => ⟨rfl⟩) fun _ => keeps_bind svgR_pre (keeps_attrLoop svgR_pre ?_ _ _) fun _ =>
    keeps_modify fun c => ⟨rfl⟩
  intro b a
  unfold svgAttr
  refine keeps_ite (svgBox_keeps _ _) (keeps_ite ?_ (keeps_ite ?_ (keeps_pure svgR_pre _)))
  · exact keeps_bind svgR_pre (keeps_modify fun c => ⟨rfl⟩) fun _ => keeps_bind svgR_pre (keeps_lift svgR_pre _) fun _ => keeps_pure svgR_pre _
  · exact keeps_bind svgR_pre (keeps_modify fun c => ⟨rfl⟩) fun _ => keeps_bind svgR_pre (keeps_lift svgR_pre _) fun _ => keeps_pure svgR_pre _

theorem drawR_pc {c : Cursor F} {p : PathCursor F} (h1 : p.curX = c.pc.curX) (h2 : p.curY = c.pc.curY)
    (h3 : p.errorMode = c.pc.errorMode) (h4 : p.log = c.pc.log) : DrawR c { c with pc := p } :=
  ⟨rfl, h1, h2, h3, by show LogR _ _ p.log; rw [h4]; exact logR_refl _ _⟩

theorem rectF_keeps (fuel : Nat) (attrs : List Attr) : Keeps DrawR (rectF fuel attrs : CM F Unit) := by
  unfold rectF
  refine keeps_bind drawR_pre (keeps_get drawR_pre) fun _ => keeps_bind drawR_pre (keeps_lift drawR_pre _) fun _ => ?_
  split
  · exact keeps_diverge drawR_pre
  · exact keeps_modify fun c => drawR_pc rfl rfl rfl rfl

theorem circleF_keeps (attrs : List Attr) : Keeps DrawR (circleF attrs : CM F Unit) := by
  unfold circleF
  refine keeps_bind drawR_pre (keeps_get drawR_pre) fun _ => keeps_bind drawR_pre (keeps_lift drawR_pre _) fun _ =>
    keeps_ite (keeps_pure drawR_pre _) (keeps_modify fun c => drawR_pc rfl rfl rfl rfl)

theorem lineF_keeps (attrs : List Attr) : Keeps DrawR (lineF attrs : CM F Unit) := by
  unfold lineF
  exact keeps_bind drawR_pre (keeps_get drawR_pre) fun _ => keeps_bind drawR_pre (keeps_lift drawR_pre _) fun _ =>
    keeps_modify fun c => drawR_pc rfl rfl rfl rfl

theorem polyDraw_frame (p : PathCursor F) : (polyDraw p).curX = p.curX ∧ (polyDraw p).curY = p.curY ∧
    (polyDraw p).errorMode = p.errorMode ∧ (polyDraw p).log = p.log := by
  unfold polyDraw
  split <;> exact ⟨rfl, rfl, rfl, rfl⟩

theorem polyAttr_keeps (u : Unit) (a : Attr) : Keeps DrawR (polyAttr u a : CM F Unit) := by
  unfold polyAttr
  refine keeps_ite ?_ (keeps_pure drawR_pre _)
  intro c
  have h := getPoints_keeps a.value c.pc
  rcases hr : getPoints a.value c.pc with ⟨r, pc⟩
  rw [hr] at h
  dsimp only at h
  show DrawR c (match getPoints a.value c.pc with
    | (r, pc) => if pc.points.length % 2 ≠ 0 then (Res.err Err.oddPoints, { c with pc := pc }) else (r, { c with pc := pc })).2
  rw [hr]
  dsimp only
  have : DrawR c { c with pc := pc } := drawR_pc (by rw [h]) (by rw [h]) (by rw [h]) (by rw [h])
  split <;> exact this

theorem polylineF_keeps (attrs : List Attr) : Keeps DrawR (polylineF attrs : CM F Unit) := by
  unfold polylineF
  refine keeps_bind drawR_pre (keeps_attrLoop drawR_pre polyAttr_keeps _ _) fun _ => keeps_modify fun c => ?_
  obtain ⟨h1, h2, h3, h4⟩ := polyDraw_frame c.pc
  exact drawR_pc h1 h2 h3 h4

theorem polygonF_keeps (attrs : List Attr) : Keeps DrawR (polygonF attrs : CM F Unit) := by
  intro c
  have h := polylineF_keeps attrs c
  unfold polygonF
  rcases hr : polylineF attrs c with ⟨r, d⟩
  rw [hr] at h
  dsimp only at h ⊢
  have h' : DrawR c (if d.pc.points.length > 4 then { d with pc := d.pc.addOps [.close] } else d) := by
    split
    · exact drawR_pre.trans h (drawR_pc rfl rfl rfl rfl)
    · exact h
  cases r <;> first | exact h | exact h'

theorem pathF_keeps (attrs : List Attr) : Keeps DrawR (pathF attrs : CM F Unit) := by
  refine keeps_attrLoop drawR_pre ?_ _ _
  intro u a
  unfold pathAttr
  refine keeps_ite ?_ (keeps_pure drawR_pre _)
  intro c
  obtain ⟨h, -⟩ := compilePath_pstep a.value c.pc
  unfold onPath
  rcases hr : compilePath a.value c.pc with ⟨r, pc⟩
  rw [hr] at h
  exact ⟨rfl, h.curX, h.curY, h.mode, h.log⟩

theorem parseTransform_gradR (v : Str) : Keeps GradR (parseTransform v : CM F (Matrix2D F)) := by
  intro c
  cases hs : c.styleStack with
  | nil =>
    rw [show parseTransform v c = (.panic .styleStack, c) by rw [parseTransform, SM.bind_run, SM.get_run]; simp only [hs]; rfl]
    exact gradR_pre.refl c
  | cons top rest =>
    obtain ⟨r, g, h1, h2⟩ := parseTransform_frame (F := F) v top.transform
    rw [h2 c top rest hs rfl]
    exact ⟨rfl, id⟩

theorem modifyGrad_keeps (f : Gradient F → Gradient F) : Keeps GradR (modifyGrad f) := by
  intro c
  unfold modifyGrad
  split
  · exact gradR_pre.refl c
  · exact ⟨rfl, id⟩

theorem setGradID_keeps (id : Str) : Keeps GradR (setGradID id : CM F Unit) := by
  intro c
  unfold setGradID
  split
  · exact gradR_pre.refl c
  · exact ⟨rfl, fun h => h⟩

theorem readGradAttr_keeps (a : Attr) : Keeps GradR (readGradAttr a : CM F Unit) := by
  unfold readGradAttr
  refine keeps_ite ?_ (keeps_ite ?_ (keeps_ite ?_ (keeps_pure gradR_pre _)))
  · exact keeps_bind gradR_pre (parseTransform_gradR _) fun _ => modifyGrad_keeps _
  · exact keeps_ite (modifyGrad_keeps _) (keeps_ite (modifyGrad_keeps _) (keeps_pure gradR_pre _))
  · exact keeps_ite (modifyGrad_keeps _) (keeps_ite (modifyGrad_keeps _) (keeps_ite (modifyGrad_keeps _) (keeps_pure gradR_pre _)))

theorem newGrad_keeps : Keeps GradR (newGrad : CM F Unit) := keeps_modify fun _ => ⟨rfl, fun _ => rfl⟩

theorem currentGrad_keeps : Keeps GradR (currentGrad : CM F (Gradient F)) := by
  intro c
  unfold currentGrad
  split <;> exact gradR_pre.refl c

theorem linAttr_keeps (d : LinStrs) (a : Attr) : Keeps GradR (linAttr d a : CM F LinStrs) := by
  unfold linAttr
  have hp : ∀ d : LinStrs, Keeps GradR (pure d : CM F LinStrs) := fun d => keeps_pure gradR_pre d
  exact keeps_ite (keeps_bind gradR_pre (setGradID_keeps _) fun _ => hp _) (keeps_ite (hp _) (keeps_ite (hp _) (keeps_ite (hp _)
    (keeps_ite (hp _) (keeps_bind gradR_pre (readGradAttr_keeps _) fun _ => hp _)))))

theorem radAttr_keeps (d : RadStrs) (a : Attr) : Keeps GradR (radAttr d a : CM F RadStrs) := by
  unfold radAttr
  have hp : ∀ d : RadStrs, Keeps GradR (pure d : CM F RadStrs) := fun d => keeps_pure gradR_pre d
  exact keeps_ite (keeps_bind gradR_pre (setGradID_keeps _) fun _ => hp _) (keeps_ite (hp _) (keeps_ite (hp _) (keeps_ite (hp _)
    (keeps_ite (hp _) (keeps_ite (hp _) (keeps_ite (hp _) (keeps_bind gradR_pre (readGradAttr_keeps _) fun _ => hp _)))))))

theorem linearGradientF_keeps (attrs : List Attr) : Keeps GradR (linearGradientF attrs : CM F Unit) := by
  unfold linearGradientF
  have hl : ∀ r : Res F, Keeps GradR (lift r : CM F F) := fun r => keeps_lift gradR_pre r
  exact keeps_bind gradR_pre newGrad_keeps fun _ => keeps_bind gradR_pre (keeps_attrLoop gradR_pre linAttr_keeps _ _) fun _ =>
    keeps_bind gradR_pre currentGrad_keeps fun _ => keeps_bind gradR_pre (hl _) fun _ => keeps_bind gradR_pre (hl _) fun _ =>
    keeps_bind gradR_pre (hl _) fun _ => keeps_bind gradR_pre (hl _) fun _ => modifyGrad_keeps _

theorem radialGradientF_keeps (attrs : List Attr) : Keeps GradR (radialGradientF attrs : CM F Unit) := by
  unfold radialGradientF
  have hl : ∀ r : Res F, Keeps GradR (lift r : CM F F) := fun r => keeps_lift gradR_pre r
  exact keeps_bind gradR_pre newGrad_keeps fun _ => keeps_bind gradR_pre (keeps_attrLoop gradR_pre radAttr_keeps _ _) fun _ =>
    keeps_bind gradR_pre currentGrad_keeps fun _ => keeps_bind gradR_pre (hl _) fun _ => keeps_bind gradR_pre (hl _) fun _ =>
    keeps_bind gradR_pre (hl _) fun _ => keeps_bind gradR_pre (hl _) fun _ => keeps_bind gradR_pre (hl _) fun _ =>
    keeps_bind gradR_pre (hl _) fun _ => modifyGrad_keeps _

theorem stopF_keeps (attrs : List Attr) : Keeps GradR (stopF attrs : CM F Unit) := by
  unfold stopF
  exact keeps_bind gradR_pre (keeps_get gradR_pre) fun _ => keeps_ite
    (keeps_bind gradR_pre (keeps_lift gradR_pre _) fun _ => modifyGrad_keeps _) (keeps_pure gradR_pre _)

end GoSvg
