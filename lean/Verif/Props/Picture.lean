import Verif.Props.Canvas
import Verif.Props.GradPaint
import Verif.Props.Tree

/-! # C88: the picture of a document — what is painted, where, with what, and in which order -/

namespace GoSvg.Spec

/-- One painting. -/
inductive Paint where
  | fill (p : Pattern ℝ) (opacity : ℝ) (nonzero : Bool)
  | stroke (p : Pattern ℝ) (opacity width : ℝ)

/-- The mean of the scales along the two axes, by which the code multiplies the widths of lines (C55). -/
noncomputable def meanScale (f : P2 → P2) : ℝ := ((f (1, 0)).1 - (f (0, 0)).1 + ((f (0, 1)).2 - (f (0, 0)).2)) / 2

/-- The paintings that a look asks for, under `f` and with the opacity `o` of the drawing. -/
noncomputable def Look.paints (l : Look) (f : P2 → P2) (o : ℝ) : List Paint :=
  (l.fill.toList.map fun p => .fill p (l.fillOpacity * o) l.nonzero) ++ l.stroke.toList.map fun p => .stroke p (l.strokeOpacity * o) (l.width * meanScale f)

/-- The paintings of figures in their looks, the figure `i` under the map `f i`: the figures in order, each with its paintings, the fill before the
stroke. -/
noncomputable def pictureBy (f : Look × Figure → P2 → P2) (o : ℝ) (is : List (Look × Figure)) : List ((Look × Figure) × Paint) :=
  is.flatMap fun i => (i.1.paints (f i) o).map fun p => (i, p)

/-- The picture of what a document shows. -/
noncomputable def picture (vb : Bounds ℝ) (x y w h o : ℝ) (is : List (Look × Figure)) : List ((Look × Figure) × Paint) :=
  pictureBy (fun i => fitted vb x y w h ∘ i.1.place) o is

/-- How far the stored points of a figure may be from its own. -/
noncomputable def Figure.slack (f : Figure) : ℝ := if f.rounded then 5 / 64 else 1 / 64

/-- A point and all images of points less than `d` from it are in the range of fixed point numbers. -/
structure InReach (d : ℝ) (f : P2 → P2) (r : P2) : Prop where
  x : InFixRange r.1
  y : InFixRange r.2
  fx : |(f r).1| + d * stretchX f < 2 ^ 25
  fy : |(f r).2| + d * stretchY f < 2 ^ 25

/-- The pen movements are an outline of the figure under `f`. -/
def Covers (f : P2 → P2) (pen : List (Event ℝ)) (i : Figure) : Prop :=
  ∃ G, i.outline G ∧ ((∀ o ∈ G, ∀ r ∈ o.points, InReach i.slack f r) →
    List.Forall₂ (CallNear (i.slack * stretchX f + 1 / 64) (i.slack * stretchY f + 1 / 64) f) pen G)

/-- The painting is the one asked for, with an ink and a width that are right for it. -/
inductive BrushedAs {P W : Type} (ink : Pattern ℝ → ℝ → P → Prop) (wide : ℝ → W → Prop) : Painted P W → Paint → Prop
  | fill {p o nz c} : ink p o c → BrushedAs ink wide (.fill (some c) nz) (.fill p o nz)
  | stroke {p o w c v} : ink p o c → wide w v → BrushedAs ink wide (.stroke (some c) (some v)) (.stroke p o w)

/-- The ink of rasterx: the colour or the gradient, with the opacity. -/
def RxInk (p : Pattern ℝ) (o : ℝ) (c : RxPaint ℝ) : Prop := ∃ extent, rxPaintOf extent p o = some c

/-- The width of a line in 1/64 px. -/
def RxWide (w : ℝ) (v : Int) : Prop := |w| < 2 ^ 25 → |(v / 64 : ℝ) - w| < 1 / 64

/-- An ink with the components of the colour `c` and an alpha that is its share `o` of 255, up to one. -/
def Tinted (p : Pattern ℝ) (o : ℝ) (c : Color) : Prop :=
  ∃ r g b, p = .plain ⟨r, g, b, 255⟩ ∧ c.r = r ∧ c.g = g ∧ c.b = b ∧ |(c.a : ℝ) - 255 * o| ≤ 1

/-- A colour that a document can name. -/
def Opaque (p : Pattern ℝ) : Prop := ∃ r g b, r < 256 ∧ g < 256 ∧ b < 256 ∧ p = .plain ⟨r, g, b, 255⟩

/-- A look without gradients, with opacities in range. -/
structure Look.Plain (l : Look) : Prop where
  fill : ∀ p, l.fill = some p → Opaque p
  stroke : ∀ p, l.stroke = some p → Opaque p
  fillOpacity : 0 ≤ l.fillOpacity ∧ l.fillOpacity ≤ 1
  strokeOpacity : 0 ≤ l.strokeOpacity ∧ l.strokeOpacity ≤ 1

/-- The outline is a single subpath. -/
def OneSubpath (G : List (GOp ℝ)) : Prop := ∃ a r, G = .moveTo a :: r ∧ ∀ op ∈ r, ∀ q, op ≠ .moveTo q

/-- The outline begins with a move. -/
def BeginsWithMove (G : List (GOp ℝ)) : Prop := ∃ a r, G = .moveTo a :: r

/-- Every subpath that another one follows is closed. -/
def ClosedInside (G : List (GOp ℝ)) : Prop := ∀ a op q b, G = a ++ op :: .moveTo q :: b → op = .close

end GoSvg.Spec

namespace GoSvg

open Spec

section

variable [GoEnv]

theorem near_under {M : Matrix2D ℝ} {f : P2 → P2} (hM : ∀ p, affine M p = f p) {d : ℝ} {q : Pt} {r : P2} (hq : PtWithin d q r) (hr : InReach d f r) :
    CallAt (d * stretchX f + 1 / 64) (d * stretchY f + 1 / 64) (px (M.tFixed q).x) (px (M.tFixed q).y) (f r) := by
  have sx : stretchX f = |M.a| + |M.c| := by simp [stretchX, lin_affine hM]
  have sy : stretchY f = |M.b| + |M.d| := by simp [stretchY, lin_affine hM]
  have dd : ∀ {a c : ℝ}, |a * ((q.x : ℝ) / 64 - r.1) + c * ((q.y : ℝ) / 64 - r.2)| ≤ d * (|a| + |c|) := by
    intro a c
    have := abs_add_le (a * ((q.x : ℝ) / 64 - r.1)) (c * ((q.y : ℝ) / 64 - r.2))
    rw [abs_mul, abs_mul] at this
    have h3 := mul_le_mul_of_nonneg_left hq.1.le (abs_nonneg a)
    have h4 := mul_le_mul_of_nonneg_left hq.2.le (abs_nonneg c)
    linarith
  have dx : |(affine M (fixed q)).1 - (f r).1| ≤ d * stretchX f := by
    rw [← hM, sx]
    have : (affine M (fixed q)).1 - (affine M r).1 = M.a * ((q.x : ℝ) / 64 - r.1) + M.c * ((q.y : ℝ) / 64 - r.2) := by
      simp only [affine, fixed]; ring
    rw [this]; exact dd
  have dy : |(affine M (fixed q)).2 - (f r).2| ≤ d * stretchY f := by
    rw [← hM, sy]
    have : (affine M (fixed q)).2 - (affine M r).2 = M.b * ((q.x : ℝ) / 64 - r.1) + M.d * ((q.y : ℝ) / 64 - r.2) := by
      simp only [affine, fixed]; ring
    rw [this]; exact dd
  have rx : InFixRange (affine M (fixed q)).1 := by
    apply inFixRange_of
    have := abs_sub_abs_le_abs_sub (affine M (fixed q)).1 (f r).1
    linarith [hr.fx]
  have ry : InFixRange (affine M (fixed q)).2 := by
    apply inFixRange_of
    have := abs_sub_abs_le_abs_sub (affine M (fixed q)).2 (f r).2
    linarith [hr.fy]
  obtain ⟨t1, t2⟩ := C23_tFixed_truncates M q rx ry
  have t1 := trunc_near t1
  have t2 := trunc_near t2
  have fin : ∀ {n : ℤ} {v u s : ℝ}, |(n / 64 : ℝ) - v| < 1 / 64 → |v - u| ≤ s → |(px n : ℝ) - u| < s + 1 / 64 := by
    intro n v u s h1 h2
    have e : (px n : ℝ) = n / 64 := by simp [px]
    rw [e]
    have := abs_sub_le (n / 64 : ℝ) v u
    linarith
  exact ⟨fin t1 dx, fin t2 dy⟩

/-- Stored operations are drawn near their own points. -/
theorem pens_near {M : Matrix2D ℝ} {f : P2 → P2} (hM : ∀ p, affine M p = f p) {d : ℝ} {path : Path} {G : List (GOp ℝ)}
    (h : List.Forall₂ (OpWithin d) path G) (hG : ∀ o ∈ G, ∀ r ∈ o.points, InReach d f r) :
    List.Forall₂ (CallNear (d * stretchX f + 1 / 64) (d * stretchY f + 1 / 64) f) (outlineUnder M path) G := by
  induction h with
  | nil => exact .nil
  | @cons op o path G ho _ ih =>
    refine .cons ?_ (ih fun o ho => hG o (List.mem_cons_of_mem _ ho))
    have hr := hG o List.mem_cons_self
    cases ho with
    | moveTo h => exact .moveTo (near_under hM h (hr _ (by simp [GOp.points])))
    | lineTo h => exact .lineTo (near_under hM h (hr _ (by simp [GOp.points])))
    | quadTo h h' => exact .quadTo (near_under hM h (hr _ (by simp [GOp.points]))) (near_under hM h' (hr _ (by simp [GOp.points])))
    | cubicTo h h' h'' =>
      exact .cubicTo (near_under hM h (hr _ (by simp [GOp.points]))) (near_under hM h' (hr _ (by simp [GOp.points])))
        (near_under hM h'' (hr _ (by simp [GOp.points])))
    | close => exact .close

theorem stored_within {G : List (GOp ℝ)} (hG : ∀ o ∈ G, ∀ r ∈ o.points, InFixRange r.1 ∧ InFixRange r.2) :
    List.Forall₂ (OpWithin (1 / 64)) (G.map (GOp.store toFix 0 0)) G := by
  have pt : ∀ r : P2, InFixRange r.1 ∧ InFixRange r.2 → PtWithin (1 / 64) ⟨toFix (r.1 +. 0), toFix (r.2 +. 0)⟩ r := by
    intro r hr
    rw [real_add, real_add, add_zero, add_zero]
    have h1 := (C05_quantised r.1 hr.1).2.1
    have h2 := (C05_quantised r.2 hr.2).2.1
    rw [abs_sub_comm] at h1 h2
    exact ⟨h1, h2⟩
  induction G with
  | nil => exact .nil
  | cons o G ih =>
    refine .cons ?_ (ih fun o ho => hG o (List.mem_cons_of_mem _ ho))
    have hr := hG o List.mem_cons_self
    cases o with
    | moveTo p => exact .moveTo (pt _ (hr _ (by simp [GOp.points])))
    | lineTo p => exact .lineTo (pt _ (hr _ (by simp [GOp.points])))
    | quadTo p q => exact .quadTo (pt _ (hr _ (by simp [GOp.points]))) (pt _ (hr _ (by simp [GOp.points])))
    | cubicTo p q r => exact .cubicTo (pt _ (hr _ (by simp [GOp.points]))) (pt _ (hr _ (by simp [GOp.points]))) (pt _ (hr _ (by simp [GOp.points])))
    | close => exact .close

/-- A path that is a figure covers it. -/
theorem covers_of {mem : List (List Str)} {q : SvgPath ℝ} {i : Look × Figure} (h : Depicts mem q i) {M : Matrix2D ℝ} {f : P2 → P2}
    (hM : ∀ p, affine M p = f p) : Covers f (outlineUnder M q.path) i.2 := by
  obtain ⟨G, h1, h2⟩ := h.outline
  refine ⟨G, h1, fun hG => ?_⟩
  unfold Figure.slack at hG ⊢
  split at h2
  · rename_i hr
    rw [if_pos hr] at hG ⊢
    exact pens_near hM h2 hG
  · rename_i hr
    rw [if_neg hr] at hG ⊢
    rw [h2]
    exact pens_near hM (stored_within fun o ho r hr => ⟨(hG o ho r hr).x, (hG o ho r hr).y⟩) hG

theorem forall₂_flatMap {α β γ δ : Type} {R : α → β → Prop} {S : γ → δ → Prop} {f : α → List γ} {g : β → List δ} {as : List α} {bs : List β}
    (h : List.Forall₂ R as bs) (hfg : ∀ a b, a ∈ as → b ∈ bs → R a b → List.Forall₂ S (f a) (g b)) : List.Forall₂ S (as.flatMap f) (bs.flatMap g) := by
  induction h with
  | nil => exact .nil
  | @cons a b as bs h _ ih =>
    rw [List.flatMap_cons, List.flatMap_cons]
    exact List.rel_append (hfg a b List.mem_cons_self List.mem_cons_self h)
      (ih fun a b ha hb => hfg a b (List.mem_cons_of_mem _ ha) (List.mem_cons_of_mem _ hb))

/-- The options of a drawing: a target and an opacity. -/
theorem options_two (vb : Bounds ℝ) (x y w h o : ℝ) : (options vb [.target x y w h, .opacity o]).target = (options vb [.target x y w h]).target ∧
    (options vb [.target x y w h, .opacity o]).opacity = o := ⟨rfl, rfl⟩

theorem mean_scale {M : Matrix2D ℝ} {f : P2 → P2} (hM : ∀ p, affine M p = f p) : M.lineWidthScale = meanScale f := by
  have := C55_mean 1 M
  rw [real_mul, one_mul, one_mul] at this
  rw [this, meanScale, hM, hM, hM]

/-- What a look asks for and what a style is painted with. -/
theorem brushed {P W : Type} {ink : Pattern ℝ → ℝ → P → Prop} {wide : ℝ → W → Prop} {st : PathStyle ℝ} {l : Look} (h : SameLook st l)
    {fill line : Pattern ℝ → ℝ → Option P} {width : ℝ → W} {f : P2 → P2} {o : ℝ} {pen : List (Event ℝ)} {i : Look × Figure}
    (S : List (Event ℝ) → Event ℝ → Look × Figure → Prop) (h1 : ∀ k, S pen k i)
    (hf : ∀ p, l.fill = some p → ∃ c, fill p (l.fillOpacity * o) = some c ∧ ink p (l.fillOpacity * o) c)
    (hl : ∀ p, l.stroke = some p → ∃ c, line p (l.strokeOpacity * o) = some c ∧ ink p (l.strokeOpacity * o) c)
    (hw : wide (l.width * meanScale f) (width l.width)) :
    List.Forall₂ (fun a e => S a.1 a.2.kind e.1 ∧ BrushedAs ink wide a.2 e.2) ((paintings fill line width st o).map fun x => (pen, x))
      ((l.paints f o).map fun p => (i, p)) := by
  unfold paintings Look.paints
  rw [List.map_append, List.map_append, h.fill, h.stroke, h.fillOpacity, h.strokeOpacity, h.nonzero, h.width]
  refine List.rel_append ?_ ?_
  · cases hc : l.fill with
    | none => exact .nil
    | some p =>
      obtain ⟨c, e1, e2⟩ := hf p hc
      refine .cons ⟨h1 _, ?_⟩ .nil
      dsimp only
      rw [real_mul, e1]
      exact .fill e2
  · cases hc : l.stroke with
    | none => exact .nil
    | some p =>
      obtain ⟨c, e1, e2⟩ := hl p hc
      refine .cons ⟨h1 _, ?_⟩ .nil
      dsimp only
      rw [real_mul, e1]
      exact .stroke e2 hw

/-! ### rasterx -/

theorem rxWide_of {w : ℝ} {M : Matrix2D ℝ} {f : P2 → P2} (hM : ∀ p, affine M p = f p) :
    RxWide (w * meanScale f) (GoFloat.toI32 (w *. num 64 *. M.lineWidthScale)) := by
  intro h
  have e : GoFloat.toI32 (w *. num 64 *. M.lineWidthScale) = toFix (w * meanScale f) := by
    unfold toFix
    rw [mean_scale hM, real_mul, real_mul, real_mul, real_num]
    congr 1
    push_cast
    ring
  rw [e, abs_sub_comm]
  exact (C05_quantised _ (inFixRange_of h)).2.1

/-- What rasterx paints for one path does not depend on what was painted before. -/
theorem rx_painted_path [RxEnv ℝ] (p : SvgPath ℝ) (hd : ∀ g, p.style.fillerColor = some (.gradient g) ∨ p.style.linerColor = some (.gradient g) → g.direction ≠ none)
    (vb : Bounds ℝ) (opts : List (RenderOption ℝ)) : ∃ e1 e2, ∀ b, painted rxStep b (Rx.drawTransformed p (options vb opts)) =
      paintings (rxPaintOf e1) (rxPaintOf e2)
        (fun w => GoFloat.toI32 (w *. num 64 *. (p.style.transform.mult (options vb opts).target).lineWidthScale)) p.style (options vb opts).opacity := by
  obtain ⟨fills, lines, -, h⟩ := C66_rasterx_partial (F := ℝ) { (initSvg : Svg ℝ) with viewBox := vb, svgPaths := [p] } opts
    (fun q hq => by rw [List.mem_singleton.1 hq]; exact hd)
  exact ⟨_, _, fun b => by simpa [Rx.draw] using h b⟩

variable {fuel : Nat} {lead post : List Token} {attrs : List Attr} {vb : Bounds ℝ} {l : Look} {T : Nodes} {E : Names} {is : List (Look × Figure)}

/-- C88 for rasterx: a document that is a tree (as in C85), drawn into the rectangle (x, y, w, ht) with the opacity o. The paintings are those that the
tree asks for, in its order; each covers its figure where the transforms and the target put it, and has the colour or gradient, the opacity, the fill
rule and the line width that the declarations say. Partial: as `C85_tree_partial`, and targets for which the code composes in the right order
(`InPlace`); widths are scaled by the mean of the two scales (C55); where gradients are placed is C66. -/
theorem C88_rasterx_partial [RxEnv ℝ] (hf : 2 ≤ fuel) (h1 : NoTags lead) (h2 : NoTags post) (hd : Distinct attrs) (hb : RootBox attrs vb)
    (hl : DeclaresAll true vb (fun _ => none) .initial (declared attrs) .initial l) (h : Shows vb l {} T E is) :
    ∃ s : Svg ℝ, (∀ m, parse fuel m (lead ++ .start "svg".toList attrs :: (T.tokens ++ .stop "svg".toList :: post)) .eof = .done (some s) none []) ∧
      ∀ x y w ht o, (∀ i ∈ is, InPlace vb x y w ht i.1.place) → ∀ b t,
        List.Forall₂ (fun a e => Covers (fitted vb x y w ht ∘ e.1.1.place) a.1 e.1.2 ∧ BrushedAs RxInk RxWide a.2 e.2)
          (rxPicture b t (Rx.draw s [.target x y w ht, .opacity o])) (picture vb x y w ht o is) := by
  obtain ⟨s, p1, p2, p3, -⟩ := C85_tree_partial hf h1 h2 hd hb hl h
  refine ⟨s, p1, fun x y w ht o hin b t => ?_⟩
  have gaps := (C39_complete (p1 .strict)).1
  have hdir : ∀ p ∈ s.svgPaths, ∀ g, p.style.fillerColor = some (.gradient g) ∨ p.style.linerColor = some (.gradient g) → g.direction ≠ none := by
    intro p hp g hg hn
    rcases hg with hg | hg
    · have := gaps p hp .fill
      rw [show PaintKind.fill.of p.style = some (.gradient g) from hg] at this
      obtain ⟨⟨d, e⟩, -⟩ := this
      rw [hn] at e; exact nomatch e
    · have := gaps p hp .stroke
      rw [show PaintKind.stroke.of p.style = some (.gradient g) from hg] at this
      obtain ⟨⟨d, e⟩, -⟩ := this
      rw [hn] at e; exact nomatch e
  have key := rx_pictured (s := s) (opts := [.target x y w ht, .opacity o]) id
    (fun p => painted rxStep {} (Rx.drawTransformed p (options s.viewBox [.target x y w ht, .opacity o]))) (fun p hp b => by
      obtain ⟨e1, e2, e⟩ := rx_painted_path p (hdir p hp) s.viewBox [.target x y w ht, .opacity o]
      rw [List.map_id, e b, e {}]) b t
  simp only [id, Prod.mk.eta, List.map_id'] at key
  rw [key]
  unfold picture pictureBy
  subst p2
  refine forall₂_flatMap p3 fun p i hp hi hpi => ?_
  obtain ⟨e1, e2, e⟩ := rx_painted_path p (hdir p hp) s.viewBox [.target x y w ht, .opacity o]
  have hM : ∀ q, affine (p.style.transform.mult (options s.viewBox [.target x y w ht, .opacity o]).target) q = (fitted s.viewBox x y w ht ∘ i.1.place) q :=
    inPlace_affine hpi.look.place (hin i hi)
  have same : ∀ {e : Pt × Pt} {c : Pattern ℝ} {o : ℝ}, (p.style.fillerColor = some c ∨ p.style.linerColor = some c) → ∃ k, rxPaintOf e c o = some k ∧ RxInk c o k := by
    intro e c o hc
    have : ∃ k, rxPaintOf e c o = some k := by
      cases c with
      | plain c => exact ⟨_, rfl⟩
      | gradient g =>
        unfold rxPaintOf rxGradient
        rcases hg : g.direction with _ | (d | d)
        · exact absurd hg (hdir p hp g hc)
        · exact ⟨_, by dsimp only; rw [hg]; rfl⟩
        · exact ⟨_, by dsimp only; rw [hg]; rfl⟩
    obtain ⟨k, hk⟩ := this
    exact ⟨k, hk, e, hk⟩
  rw [e]
  exact brushed (ink := RxInk) (wide := RxWide) (S := fun a _ e => Covers (fitted s.viewBox x y w ht ∘ e.1.place) a e.2) hpi.look.toSameLook
    (fun _ => covers_of hpi hM) (fun c hc => same (.inl (hpi.look.fill.trans hc))) (fun c hc => same (.inr (hpi.look.stroke.trans hc))) (rxWide_of hM)

/-! ### draw2d and gg -/

theorem tinted_of {p : Pattern ℝ} (h : Opaque p) {o : ℝ} (h0 : 0 ≤ o) (h1 : o ≤ 1) : Tinted p o (toColor (flat p) o) := by
  obtain ⟨r, g, b, hr, hg, hb, rfl⟩ := h
  have ha := C53_alpha_partial (c := ⟨r, g, b, 255⟩) (by norm_num) h0 h1
  have comp : ∀ n : ℕ, n < 256 → n * 257 * 255 / 255 / 256 % 256 = n := by
    intro n hn
    have : n * 257 / 256 = n := by omega
    rw [Nat.mul_div_cancel _ (by norm_num), this]
    omega
  refine ⟨r, g, b, rfl, comp r hr, comp g hg, comp b hb, ?_⟩
  obtain ⟨-, -, b1, b2⟩ := ha
  have b1 : ((⌊((255 : ℕ) : ℝ) * o⌋ : ℤ) : ℝ) ≤ ((toColor (⟨r, g, b, 255⟩ : Color) o).a : ℝ) := by exact_mod_cast b1
  have b2 : ((toColor (⟨r, g, b, 255⟩ : Color) o).a : ℝ) ≤ ((⌊((255 : ℕ) : ℝ) * o⌋ : ℤ) : ℝ) + 1 := by exact_mod_cast b2
  have f1 := Int.floor_le (((255 : ℕ) : ℝ) * o)
  have f2 := Int.lt_floor_add_one (((255 : ℕ) : ℝ) * o)
  push_cast at b1 b2 f1 f2
  unfold flat
  rw [abs_le]
  constructor <;> linarith

omit [GoEnv] in
theorem unit_mul {a o : ℝ} (ha : 0 ≤ a ∧ a ≤ 1) (ho : 0 ≤ o ∧ o ≤ 1) : 0 ≤ a * o ∧ a * o ≤ 1 :=
  ⟨mul_nonneg ha.1 ho.1, by nlinarith [ha.1, ha.2, ho.1, ho.2]⟩

omit [GoEnv] in
/-- The stored path has the moves and the closes of the outline. -/
theorem depicts_kinds {mem : List (List Str)} {q : SvgPath ℝ} {i : Look × Figure} (h : Depicts mem q i) : ∃ G, i.2.outline G ∧
    List.Forall₂ (fun op o => (Op.isMove op = true ↔ ∃ r, o = .moveTo r) ∧ (op = .close ↔ o = .close)) q.path G := by
  obtain ⟨G, h1, h2⟩ := h.outline
  refine ⟨G, h1, ?_⟩
  split at h2
  · refine h2.imp fun op o h => ?_
    cases h <;> simp [Op.isMove]
  · rw [h2]
    clear h1 h2
    induction G with
    | nil => exact .nil
    | cons o G ih => exact .cons (by cases o <;> simp [GOp.store, Op.isMove]) ih

omit [GoEnv] in
theorem forall₂_left {α β : Type} {R : α → β → Prop} {as : List α} {bs : List β} (h : List.Forall₂ R as bs) {a : α} (ha : a ∈ as) :
    ∃ b ∈ bs, R a b := by
  induction h with
  | nil => exact nomatch ha
  | @cons a' b' _ _ h1 _ ih =>
    rcases List.mem_cons.1 ha with rfl | ha
    · exact ⟨b', List.mem_cons_self, h1⟩
    · obtain ⟨b, hb, h⟩ := ih ha
      exact ⟨b, List.mem_cons_of_mem _ hb, h⟩

omit [GoEnv] in
theorem begun_of {path : Path} {G : List (GOp ℝ)}
    (h : List.Forall₂ (fun op o => (Op.isMove op = true ↔ ∃ r, o = .moveTo r) ∧ (op = .close ↔ o = .close)) path G) (hG : BeginsWithMove G) : Begun path := by
  obtain ⟨a, r, rfl⟩ := hG
  cases h with
  | @cons op _ path _ h1 _ =>
    have := h1.1.2 ⟨_, rfl⟩
    cases op <;> first | exact ⟨_, _, rfl⟩ | exact nomatch this

omit [GoEnv] in
theorem single_of {path : Path} {G : List (GOp ℝ)}
    (h : List.Forall₂ (fun op o => (Op.isMove op = true ↔ ∃ r, o = .moveTo r) ∧ (op = .close ↔ o = .close)) path G) (hG : OneSubpath G) : Single path := by
  obtain ⟨a, r, rfl, hr⟩ := hG
  cases h with
  | @cons op _ path _ h1 h2 =>
    have := h1.1.2 ⟨_, rfl⟩
    have rest : ∀ op ∈ path, ∀ q, op ≠ .moveTo q := by
      clear h1 this
      induction h2 with
      | nil => exact fun _ h => nomatch h
      | @cons op o path G h1 _ ih =>
        intro op' hm q e
        rcases List.mem_cons.1 hm with rfl | hm
        · obtain ⟨r', e'⟩ := h1.1.1 (by rw [e]; rfl)
          exact hr o List.mem_cons_self r' e'
        · exact ih (fun o ho => hr o (List.mem_cons_of_mem _ ho)) op' hm q e
    cases op <;> first | exact ⟨_, _, rfl, rest⟩ | exact nomatch this

omit [GoEnv] in
theorem closedBefore_of {path : Path} {G : List (GOp ℝ)}
    (h : List.Forall₂ (fun op o => (Op.isMove op = true ↔ ∃ r, o = .moveTo r) ∧ (op = .close ↔ o = .close)) path G) (hG : ClosedInside G) : ClosedBefore path := by
  intro a op q b e
  rw [e] at h
  obtain ⟨G1, h⟩ : ∃ G', G' = G := ⟨G, rfl⟩
  subst h
  have hsplit : ∃ A x y B, G1 = A ++ x :: y :: B ∧ (op = .close ↔ x = .close) ∧ ∃ r, y = GOp.moveTo r := by
    clear e hG
    induction a generalizing G1 with
    | nil =>
      cases h with
      | cons h1 h2 =>
        cases h2 with
        | cons h3 h4 => exact ⟨[], _, _, _, rfl, h1.2, h3.1.1 rfl⟩
    | cons c a ih =>
      cases h with
      | cons h1 h2 =>
        obtain ⟨A, x, y, B, rfl, e1, e2⟩ := ih _ h2
        exact ⟨_ :: A, x, y, B, rfl, e1, e2⟩
  obtain ⟨A, x, y, B, e1, e2, r, rfl⟩ := hsplit
  exact e2.2 (hG A x r B e1)

/-- C88 for draw2d: the same, with plain colours; the alpha of an ink is right up to one of 255. Partial: as for rasterx; no gradients (C66); figures of
one subpath (`C87_draw2d_false`); opacities between 0 and 1 (`C53_false`). -/
theorem C88_draw2d_partial (hf : 2 ≤ fuel) (h1 : NoTags lead) (h2 : NoTags post) (hd : Distinct attrs) (hb : RootBox attrs vb)
    (hl : DeclaresAll true vb (fun _ => none) .initial (declared attrs) .initial l) (h : Shows vb l {} T E is) (hp : ∀ i ∈ is, i.1.Plain)
    (hs : ∀ i ∈ is, ∀ G, i.2.outline G → OneSubpath G) :
    ∃ s : Svg ℝ, (∀ m, parse fuel m (lead ++ .start "svg".toList attrs :: (T.tokens ++ .stop "svg".toList :: post)) .eof = .done (some s) none []) ∧
      ∀ x y w ht o, 0 ≤ o ∧ o ≤ 1 → (∀ i ∈ is, InPlace vb x y w ht i.1.place) → ∀ b t,
        List.Forall₂ (fun a e => Covers (fitted vb x y w ht ∘ e.1.1.place) a.1 e.1.2 ∧ BrushedAs Tinted (fun w v => v = w) a.2 e.2)
          (d2Picture b t (Draw2d.draw s [.target x y w ht, .opacity o])) (picture vb x y w ht o is) := by
  obtain ⟨s, p1, p2, p3, -⟩ := C85_tree_partial hf h1 h2 hd hb hl h
  refine ⟨s, p1, fun x y w ht o ho hin b t => ?_⟩
  have single : ∀ p ∈ s.svgPaths, Single p.path := by
    intro p hp
    obtain ⟨i, hi, hpi⟩ := forall₂_left p3 hp
    obtain ⟨G, g1, g2⟩ := depicts_kinds hpi
    exact single_of g2 (hs i hi G g1)
  have paint : ∀ p b, painted d2Step b (Draw2d.drawTransformed p (options s.viewBox [.target x y w ht, .opacity o])) = _ := fun p b => by
    simpa [Draw2d.draw] using C66_draw2d_partial { (initSvg : Svg ℝ) with viewBox := s.viewBox, svgPaths := [p] } [.target x y w ht, .opacity o] b
  have key := d2_pictured (s := s) (opts := [.target x y w ht, .opacity o]) id _ (fun p hp b => by rw [List.map_id, paint p b])
    (fun p hp => (single p hp).imp fun a ⟨r, h, _⟩ => ⟨r, h⟩) b t
  simp only [id, Prod.mk.eta, List.map_id'] at key
  rw [key]
  unfold picture pictureBy
  subst p2
  refine forall₂_flatMap p3 fun p i hq hi hpi => ?_
  have hM : ∀ q, affine (p.style.transform.mult (options s.viewBox [.target x y w ht, .opacity o]).target) q = (fitted s.viewBox x y w ht ∘ i.1.place) q :=
    inPlace_affine hpi.look.place (hin i hi)
  rw [lastSubpath_single (single p hq)]
  exact brushed (ink := Tinted) (wide := fun w v => v = w) (S := fun a _ e => Covers (fitted s.viewBox x y w ht ∘ e.1.place) a e.2) hpi.look.toSameLook
    (fun _ => covers_of hpi hM)
    (fun c hc => ⟨_, rfl, tinted_of ((hp i hi).fill c hc) (unit_mul (hp i hi).fillOpacity ho).1 (unit_mul (hp i hi).fillOpacity ho).2⟩)
    (fun c hc => ⟨_, rfl, tinted_of ((hp i hi).stroke c hc) (unit_mul (hp i hi).strokeOpacity ho).1 (unit_mul (hp i hi).strokeOpacity ho).2⟩)
    (by rw [mean_scale hM])

/-- The ink of gg -/
def GGInk (p : Pattern ℝ) (o : ℝ) (c : GGPattern ℝ) : Prop := ∃ k, c = .solid k ∧ Tinted p o k

/-- What gg draws right: plain colours, a fill or a stroke but not both, every subpath that another follows closed. -/
structure GGReady (i : Look × Figure) : Prop where
  plain : i.1.Plain
  outline : ∀ G, i.2.outline G → BeginsWithMove G ∧ ClosedInside G
  one : i.1.fill = none ↔ i.1.stroke ≠ none

omit [GoEnv] in
theorem gg_setup {mem : List (List Str)} {p : SvgPath ℝ} {i : Look × Figure} (h : Depicts mem p i) (hi : GGReady i) (o : ℝ) :
    ∃ fs, GG.fillSetup p.style o = some fs := by
  unfold GG.fillSetup
  rw [h.look.fill]
  cases hc : i.1.fill with
  | none => exact ⟨_, rfl⟩
  | some c =>
    obtain ⟨r, g, b, -, -, -, rfl⟩ := hi.plain.fill c hc
    exact ⟨_, rfl⟩

/-- The paintings of gg for paths that are figures in their looks. -/
theorem gg_depicted {s : Svg ℝ} {ps : List (SvgPath ℝ)} {is : List (Look × Figure)} (hps : List.Forall₂ (Depicts s.arrays) ps is)
    (hr : ∀ i ∈ is, GGReady i) {M : SvgPath ℝ → Matrix2D ℝ} {f : Look × Figure → P2 → P2}
    (hM : ∀ p ∈ ps, ∀ i ∈ is, Depicts s.arrays p i → ∀ q, affine (M p) q = f i q) {o : ℝ} (ho : 0 ≤ o ∧ o ≤ 1) {fuel : Nat} {cs : List (GGCall ℝ)}
    (hc : GG.drawAll (fun p => GG.drawTransformed s fuel p (M p) o) ps = .ok cs) (b : Brush (GGPattern ℝ) ℝ) :
    List.Forall₂ (fun a e => (∃ pen, Covers (f e.1) pen e.1.2 ∧ visible (a.1, a.2.kind) = visible (pen, a.2.kind)) ∧
      BrushedAs GGInk (fun w v => v = w) a.2 e.2) (ggPicture b [] cs) (pictureBy f o is) := by
  have paint : ∀ p ∈ ps, ∀ m o, ggPaintings p.style m o = paintings (fun c o => some (.solid (toColor (flat c) o)))
      (fun c o => some (.solid (toColor (flat c) o))) (fun w => w *. m.lineWidthScale) p.style o := by
    intro p hq m o
    obtain ⟨i, hi, hpi⟩ := forall₂_left hps hq
    unfold ggPaintings paintings
    rw [hpi.look.fill, hpi.look.stroke]
    have := (hr i hi).one
    cases hc : i.1.stroke with
    | none =>
      cases hc' : i.1.fill with
      | none => rfl
      | some c =>
        obtain ⟨r, g, b, -, -, -, rfl⟩ := (hr i hi).plain.fill c hc'
        rfl
    | some c =>
      rw [this.2 (by rw [hc]; exact fun h => nomatch h)]
      simp only [Option.toList, List.map_nil, List.nil_append]
  have shape : ∀ p ∈ ps, Begun p.path ∧ ClosedBefore p.path ∧ paintOf p.style ≠ [] := by
    intro p hq
    obtain ⟨i, hi, hpi⟩ := forall₂_left hps hq
    obtain ⟨G, g1, g2⟩ := depicts_kinds hpi
    refine ⟨begun_of g2 ((hr i hi).outline G g1).1, closedBefore_of g2 ((hr i hi).outline G g1).2, ?_⟩
    unfold paintOf
    rw [hpi.look.fill, hpi.look.stroke]
    have := (hr i hi).one
    cases hc : i.1.stroke with
    | none =>
      cases hc' : i.1.fill with
      | none => exact absurd hc (this.1 hc')
      | some c => exact fun h => nomatch h
    | some c => rw [this.2 (by rw [hc]; exact fun h => nomatch h)]; exact fun h => nomatch h
  have key := gg_all_pictured id (g := fun p => paintings (fun c o => some (.solid (toColor (flat c) o))) (fun c o => some (.solid (toColor (flat c) o)))
      (fun v => v *. (M p).lineWidthScale) p.style o) (o := fun p => ggOutline (M p) p.path) ps
    (fun p hq cs hc b => by
      obtain ⟨k1, k2, k3⟩ := gg_path_pictured hc (shape p hq).1 b
      exact ⟨k1, by rw [List.map_id, C66_gg_path hc b, paint p hq], k3 (shape p hq).2.2⟩) cs hc b
  simp only [id, Prod.mk.eta, List.map_id'] at key
  rw [key]
  unfold pictureBy
  refine forall₂_flatMap hps fun p i hq hi hpi => ?_
  refine (brushed (ink := GGInk) (wide := fun w v => v = w)
    (S := fun a k e => (k = .fill ∨ k = .stroke) → ∃ pen, Covers (f e) pen e.2 ∧ visible (a, k) = visible (pen, k))
    hpi.look.toSameLook
    (fun k hk => ⟨_, covers_of hpi (hM p hq i hi hpi), ?_⟩)
    (fun c hc => ⟨_, rfl, _, rfl, tinted_of ((hr i hi).plain.fill c hc) (unit_mul (hr i hi).plain.fillOpacity ho).1 (unit_mul (hr i hi).plain.fillOpacity ho).2⟩)
    (fun c hc => ⟨_, rfl, _, rfl, tinted_of ((hr i hi).plain.stroke c hc) (unit_mul (hr i hi).plain.strokeOpacity ho).1 (unit_mul (hr i hi).plain.strokeOpacity ho).2⟩)
    (by rw [mean_scale (hM p hq i hi hpi)]; rfl)).imp fun a e h => ⟨h.1 ?_, h.2⟩
  · rcases hk with rfl | rfl
    · simp only [visible, area_gg]
    · simp only [visible, squeeze_gg _ (shape p hq).2.1]
  · cases a.2
    · exact .inl rfl
    · exact .inr rfl

/-- gg ends without a panic, if the masks do. -/
theorem gg_ends {s : Svg ℝ} {ps : List (SvgPath ℝ)} {is : List (Look × Figure)} (hps : List.Forall₂ (Depicts s.arrays) ps is) (hr : ∀ i ∈ is, GGReady i)
    {M : SvgPath ℝ → Matrix2D ℝ} {o : ℝ} {fuel : Nat}
    (hm : ∀ p ∈ ps, ∀ i ∈ is, Depicts s.arrays p i → maskOf s p = none ∧ (fuel ≠ 0 ∨ i.1.masks = []) ∨ ∃ k mask content, fuel = k + 1 ∧ maskOf s p = some mask ∧
      GG.drawAll (fun q => GG.drawTransformed s k q (M p) (num 1)) mask.svgPaths = .ok content) :
    ∃ cs, GG.drawAll (fun p => GG.drawTransformed s fuel p (M p) o) ps = .ok cs := by
  induction hps with
  | nil => exact ⟨_, rfl⟩
  | @cons p i ps is hpi hps ih =>
    obtain ⟨cs, hcs⟩ := ih (fun j hj => hr j (List.mem_cons_of_mem _ hj)) fun p hp i hi => hm p (List.mem_cons_of_mem _ hp) i (List.mem_cons_of_mem _ hi)
    obtain ⟨fs, hfs⟩ := gg_setup hpi (hr i List.mem_cons_self) o
    have : ∃ c, GG.drawTransformed s fuel p (M p) o = .ok c := by
      unfold GG.drawTransformed
      rcases hm p List.mem_cons_self i List.mem_cons_self hpi with ⟨h, h'⟩ | ⟨k, mask, content, rfl, h, hk⟩
      · unfold maskOf at h
        cases e : (p.style.masks.read s.arrays).getLast? with
        | none => exact ⟨_, by dsimp only; unfold GG.drawMasked; rw [hfs]⟩
        | some id =>
          rw [e] at h
          cases fuel with
          | zero =>
            rcases h' with h' | h'
            · exact absurd rfl h'
            · rw [hpi.look.masks, h'] at e; exact nomatch e
          | succ k =>
            have h : s.svgMasks.find id = none := h
            exact ⟨_, by dsimp only; rw [h]; dsimp only; unfold GG.drawMasked; rw [hfs]⟩
      · unfold maskOf at h
        obtain ⟨id, e1, e2⟩ := Option.bind_eq_some_iff.1 h
        rw [e1]
        dsimp only
        rw [e2]
        dsimp only
        rw [hk]
        exact ⟨_, by dsimp only; unfold GG.drawMasked; rw [hfs]⟩
    obtain ⟨c, hc⟩ := this
    exact ⟨_, by rw [GG.drawAll, hc]; dsimp only; rw [hcs]⟩

/-- C88 for gg: the same; an outline may differ by closes that cannot be seen. Partial: as for draw2d, but figures may have several subpaths, if each one
that another follows is closed; every figure has a fill or a stroke (`C87_gg_unpainted_false`) but not both (`C62_gg_false`). -/
theorem C88_gg_partial (hf : 2 ≤ fuel) (h1 : NoTags lead) (h2 : NoTags post) (hd : Distinct attrs) (hb : RootBox attrs vb)
    (hl : DeclaresAll true vb (fun _ => none) .initial (declared attrs) .initial l) (h : Shows vb l {} T E is) (hr : ∀ i ∈ is, GGReady i) :
    ∃ s : Svg ℝ, (∀ m, parse fuel m (lead ++ .start "svg".toList attrs :: (T.tokens ++ .stop "svg".toList :: post)) .eof = .done (some s) none []) ∧
      ∀ x y w ht o, 0 ≤ o ∧ o ≤ 1 → (∀ i ∈ is, InPlace vb x y w ht i.1.place) →
        ((∀ i ∈ is, i.1.masks = []) → ∃ cs, GG.draw s 0 [.target x y w ht, .opacity o] = .ok cs) ∧
        ∀ fuel' cs, GG.draw s fuel' [.target x y w ht, .opacity o] = .ok cs → ∀ b,
          List.Forall₂ (fun a e => (∃ pen, Covers (fitted vb x y w ht ∘ e.1.1.place) pen e.1.2 ∧ visible (a.1, a.2.kind) = visible (pen, a.2.kind)) ∧
            BrushedAs GGInk (fun w v => v = w) a.2 e.2) (ggPicture b [] cs) (picture vb x y w ht o is) := by
  obtain ⟨s, p1, p2, p3, -⟩ := C85_tree_partial hf h1 h2 hd hb hl h
  refine ⟨s, p1, fun x y w ht o ho hin => ⟨fun hm => ?_, fun fuel' cs hc b => ?_⟩⟩
  · exact gg_ends p3 hr fun p hp i hi hpi => .inl ⟨by unfold maskOf; rw [hpi.look.masks, hm i hi]; rfl, .inr (hm i hi)⟩
  · subst p2
    exact gg_depicted p3 hr (f := fun i => fitted s.viewBox x y w ht ∘ i.1.place) (fun p hp i hi hpi => inPlace_affine hpi.look.place (hin i hi)) ho hc b

end

section Examples

attribute [local instance] asciiEnv

theorem place_origin {w h : ℝ} : fitted treeBox 0 0 w h (0, 0) = (0, 0) := by simp [fitted, treeBox]

theorem scale_axes : KeepsAxes (applyList [.scale 2 2]) := by
  constructor <;> simp [lin, applyList, Fn.apply]

theorem plain_axes : KeepsAxes id := by
  constructor <;> simp [lin]

theorem inPlace_scale {w h : ℝ} : InPlace treeBox 0 0 w h (applyList [.scale 2 2]) :=
  ⟨by simp [treeBox], .inl rfl, .inl rfl, .inr scale_axes, by rw [place_origin]; simp [lin, applyList, Fn.apply]⟩

theorem inPlace_plain {w h : ℝ} : InPlace treeBox 0 0 w h id :=
  ⟨by simp [treeBox], .inl rfl, .inl rfl, .inr plain_axes, by rw [place_origin]; simp [lin]⟩

/-- C88 for the example of C85: seven paintings. The last two are those of the circle that is used, at (0, 0, 300, 100): the fill, and the stroke with the
width 5, both with the opacity 1/4. -/
example [RxEnv ℝ] : ∃ s : Svg ℝ,
    (∀ m, parse 2 m ([.other] ++ .start "svg".toList treeRoot :: (treeDoc.tokens ++ [.stop "svg".toList])) .eof = .done (some s) none []) ∧
    ∀ b t, (rxPicture b t (Rx.draw s [.target 0 0 300 100, .opacity (1 / 4)])).length = 7 ∧
      ∃ o5 o6 v, (rxPicture b t (Rx.draw s [.target 0 0 300 100, .opacity (1 / 4)])).drop 5 =
        [(o5, .fill (some (.plain ⟨255, 0, 0, 255⟩ (1 * (1 / 4)))) true), (o6, .stroke (some (.plain ⟨0, 0, 255, 255⟩ (1 * (1 / 4)))) (some v))] ∧
        |(v / 64 : ℝ) - 5| < 1 / 64 := by
  obtain ⟨s, h1, h2⟩ := C88_rasterx_partial (fuel := 2) (le_refl _) (lead := [.other]) (post := []) (by decide) (by decide) (by decide) tree_box tree_root
    tree_shows
  refine ⟨s, h1, fun b t => ?_⟩
  have key := h2 0 0 300 100 (1 / 4) (fun i hi => by
    simp only [List.mem_cons, List.not_mem_nil, or_false] at hi
    rcases hi with rfl | rfl | rfl | rfl
    · exact inPlace_scale
    · exact inPlace_scale
    · exact inPlace_plain
    · exact inPlace_plain) b t
  clear h2
  generalize rxPicture b t _ = l at key ⊢
  simp only [picture, pictureBy, List.flatMap_cons, List.flatMap_nil, Look.paints, groupLook, blueLook, Look.initial, Option.toList, List.map_cons, List.map_nil,
    List.nil_append, List.cons_append, List.append_nil] at key
  have hn : l.length = 7 := key.length_eq
  match l, hn, key with
  | [_, _, _, _, _, (o5, a5), (o6, a6)], _, key =>
  simp only [List.forall₂_cons] at key
  obtain ⟨-, -, -, -, -, ⟨-, k5⟩, ⟨-, k6⟩, -⟩ := key
  refine ⟨rfl, ?_⟩
  cases k5 with
  | fill k5 =>
    cases k6 with
    | @stroke _ _ _ _ v k6 k7 =>
      obtain ⟨_, e⟩ := k5
      obtain ⟨_, e'⟩ := k6
      cases e
      cases e'
      have e : (2 : ℝ) * meanScale (fitted treeBox 0 0 300 100 ∘ id) = 5 := by
        simp [meanScale, fitted, treeBox]; norm_num
      have k7 := k7
      rw [e] at k7
      exact ⟨o5, o6, v, rfl, k7 (by norm_num)⟩

/-- The circle in the group. -/
def tinyDoc : Nodes := .group treeG (.shape "circle".toList treeCircle [] .nil) .nil

theorem tree_circle_one {G : List (GOp ℝ)} (h : treeFigure.outline G) : OneSubpath G ∧ BeginsWithMove G ∧ ClosedInside G := by
  obtain ⟨cs, -, rfl⟩ := h
  have no : ∀ op ∈ (cs.map fun b => GOp.cubicTo b.p1 b.p2 b.p3) ++ [.close], ∀ q, op ≠ .moveTo q := by
    intro op ho q e
    subst e
    simp at ho
  refine ⟨⟨_, _, rfl, no⟩, ⟨_, _, rfl⟩, fun a op q b e => ?_⟩
  rw [List.cons_append] at e
  cases a with
  | nil =>
    injection e with _ e
    exact absurd rfl (no (.moveTo q) (by rw [e]; exact List.mem_cons_self) q)
  | cons _ a =>
    injection e with _ e
    exact absurd rfl (no (.moveTo q) (by rw [e]; simp) q)

theorem group_plain : groupLook.Plain where
  fill _ h := nomatch h
  stroke p h := by injection h with h; exact ⟨0, 0, 255, by decide, by decide, by decide, h.symm⟩
  fillOpacity := by constructor <;> norm_num [groupLook]
  strokeOpacity := by constructor <;> norm_num [groupLook]

theorem tiny_shows : ∃ E, Shows treeBox blueLook {} tinyDoc E [(groupLook, treeFigure)] := by
  exact ⟨_, .group (is := [_]) tree_group (.shape (by decide) tree_declared_circle tree_circle (by decide) .nil) .nil⟩

theorem tiny_in {w h : ℝ} : ∀ i ∈ [(groupLook, treeFigure)], InPlace treeBox 0 0 w h i.1.place := by
  intro i hi
  cases List.mem_singleton.1 hi
  exact inPlace_scale

/-- C88 for draw2d and gg: a blue circle at half opacity, twice as large in a view box of its own size; the line is 4 wide. -/
example : ∃ s : Svg ℝ,
    (∀ m, parse 2 m ([.other] ++ .start "svg".toList treeRoot :: (tinyDoc.tokens ++ [.stop "svg".toList])) .eof = .done (some s) none []) ∧
    ∀ b t, ∃ o c, d2Picture b t (Draw2d.draw s [.target 0 0 100 50, .opacity 1]) = [(o, .stroke (some c) (some 4))] ∧
      c.r = 0 ∧ c.g = 0 ∧ c.b = 255 ∧ |(c.a : ℝ) - 255 / 2| ≤ 1 := by
  obtain ⟨E, hE⟩ := tiny_shows
  obtain ⟨s, h1, h2⟩ := C88_draw2d_partial (fuel := 2) (le_refl _) (lead := [.other]) (post := []) (by decide) (by decide) (by decide) tree_box tree_root
    hE (by intro i hi; cases List.mem_singleton.1 hi; exact group_plain) (by intro i hi; cases List.mem_singleton.1 hi; exact fun G h => (tree_circle_one h).1)
  refine ⟨s, h1, fun b t => ?_⟩
  have key := h2 0 0 100 50 1 (by norm_num) tiny_in b t
  clear h2
  generalize d2Picture b t _ = l at key ⊢
  simp only [picture, pictureBy, List.flatMap_cons, List.flatMap_nil, Look.paints, groupLook, blueLook, Look.initial, Option.toList, List.map_cons, List.map_nil,
    List.nil_append, List.append_nil] at key
  have hn : l.length = 1 := key.length_eq
  match l, hn, key with
  | [(o, a)], _, key =>
  simp only [List.forall₂_cons] at key
  obtain ⟨⟨-, k⟩, -⟩ := key
  cases k with
  | @stroke _ _ _ c v k k' =>
    obtain ⟨_, _, _, e, k1, k2, k3, k4⟩ := k
    cases e
    have e : (2 : ℝ) * meanScale (fitted treeBox 0 0 100 50 ∘ applyList [.scale 2 2]) = 4 := by
      simp [meanScale, fitted, treeBox, applyList, Fn.apply]; norm_num
    subst k'
    refine ⟨o, c, by rw [e], k1, k2, k3, ?_⟩
    have : (255 : ℝ) * (1 * (1 / 2) * 1) = 255 / 2 := by norm_num
    rwa [this] at k4

example : ∃ s : Svg ℝ,
    (∀ m, parse 2 m ([.other] ++ .start "svg".toList treeRoot :: (tinyDoc.tokens ++ [.stop "svg".toList])) .eof = .done (some s) none []) ∧
    ∃ cs, GG.draw s 0 [.target 0 0 100 50, .opacity 1] = .ok cs ∧
    ∀ b, ∃ o c, ggPicture b [] cs = [(o, .stroke (some (.solid c)) (some 4))] ∧ c.r = 0 ∧ c.g = 0 ∧ c.b = 255 ∧ |(c.a : ℝ) - 255 / 2| ≤ 1 := by
  obtain ⟨E, hE⟩ := tiny_shows
  obtain ⟨s, h1, h2⟩ := C88_gg_partial (fuel := 2) (le_refl _) (lead := [.other]) (post := []) (by decide) (by decide) (by decide) tree_box tree_root
    hE (by intro i hi; cases List.mem_singleton.1 hi; exact ⟨group_plain, fun G h => (tree_circle_one h).2, by simp [groupLook, blueLook]⟩)
  obtain ⟨⟨cs, h3⟩, h2⟩ := (h2 0 0 100 50 1 (by norm_num) tiny_in).imp_left fun h => h (by intro i hi; cases List.mem_singleton.1 hi; rfl)
  refine ⟨s, h1, cs, h3, fun b => ?_⟩
  have key := h2 0 cs h3 b
  clear h2
  generalize ggPicture b [] cs = l at key ⊢
  simp only [picture, pictureBy, List.flatMap_cons, List.flatMap_nil, Look.paints, groupLook, blueLook, Look.initial, Option.toList, List.map_cons, List.map_nil,
    List.nil_append, List.append_nil] at key
  have hn : l.length = 1 := key.length_eq
  match l, hn, key with
  | [(o, a)], _, key =>
  simp only [List.forall₂_cons] at key
  obtain ⟨⟨-, k⟩, -⟩ := key
  cases k with
  | @stroke _ _ _ c v k k' =>
    obtain ⟨c, rfl, _, _, _, e, k1, k2, k3, k4⟩ := k
    cases e
    have e : (2 : ℝ) * meanScale (fitted treeBox 0 0 100 50 ∘ applyList [.scale 2 2]) = 4 := by
      simp [meanScale, fitted, treeBox, applyList, Fn.apply]; norm_num
    subst k'
    refine ⟨o, c, by rw [e], k1, k2, k3, ?_⟩
    have : (255 : ℝ) * (1 * (1 / 2) * 1) = 255 / 2 := by norm_num
    rwa [this] at k4

end Examples

end GoSvg
