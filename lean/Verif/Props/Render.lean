import Verif.Lemmas.Docs
import Verif.Props.Matrix
import Verif.Spec.Drawing

/-! Properties C48 to C55 and C60: the renderers. -/

set_option linter.unusedSectionVars false

namespace GoSvg

variable {F : Type} [GoFloat F] [GoEnv]

open Spec

/-! ### C48 -/

theorem options_append (vb : Bounds F) (as bs : List (RenderOption F)) :
    options vb (as ++ bs) = bs.foldl (RenderOption.apply vb) (options vb as) := List.foldl_append ..

theorem fold_no_opacity (vb : Bounds F) (r : RenderOptions F) (l : List (RenderOption F)) (h : ∀ o, .opacity o ∉ l) :
    (l.foldl (RenderOption.apply vb) r).opacity = r.opacity := by
  induction l generalizing r with
  | nil => rfl
  | cons x l ih =>
    rw [List.foldl_cons, ih _ fun o ho => h o (List.mem_cons_of_mem _ ho)]
    cases x with
    | opacity o => exact absurd List.mem_cons_self (h o)
    | target x y w h => rfl

theorem fold_no_target (vb : Bounds F) (r : RenderOptions F) (l : List (RenderOption F)) (h : ∀ x y w h, .target x y w h ∉ l) :
    (l.foldl (RenderOption.apply vb) r).target = r.target := by
  induction l generalizing r with
  | nil => rfl
  | cons x l ih =>
    rw [List.foldl_cons, ih _ fun x y w h' ho => h x y w h' (List.mem_cons_of_mem _ ho)]
    cases x with
    | opacity o => rfl
    | target x y w h' => exact absurd List.mem_cons_self (h x y w h')

/-- C48: the last `Opacity` decides, whatever else there is. -/
theorem C48_last_opacity (vb : Bounds F) (pre post : List (RenderOption F)) (o : F) (h : ∀ o', .opacity o' ∉ post) :
    (options vb (pre ++ .opacity o :: post)).opacity = o := by
  rw [options_append, List.foldl_cons, fold_no_opacity vb _ post h]; rfl

/-- C48: the last `Target` decides, whatever else there is: the mapping is the one of that option alone. -/
theorem C48_last_target (vb : Bounds F) (pre post : List (RenderOption F)) (x y w h : F) (hp : ∀ x y w h, .target x y w h ∉ post) :
    (options vb (pre ++ .target x y w h :: post)).target = (options vb [.target x y w h]).target := by
  rw [options_append, List.foldl_cons, fold_no_target vb _ post hp]; rfl

/-- C48: without an `Opacity` the opacity is 1. -/
theorem C48_default_opacity (vb : Bounds F) (l : List (RenderOption F)) (h : ∀ o, .opacity o ∉ l) : (options vb l).opacity = num 1 :=
  fold_no_opacity vb _ l h

/-- C48 is false without a `Target`: every point of every path is drawn at the origin. -/
theorem C48_no_target_false (vb : Bounds ℝ) (l : List (RenderOption ℝ)) (h : ∀ x y w h, .target x y w h ∉ l) (m : Matrix2D ℝ) (p : Pt) :
    (m.mult (options vb l).target).tFixed p = ⟨0, 0⟩ := by
  have : (options vb l).target = ⟨0, 0, 0, 0, 0, 0⟩ := by
    rw [options, fold_no_target vb _ l h]; norm_num
  rw [this]
  simp only [Matrix2D.mult, Matrix2D.tFixed, real_add, real_mul, mul_zero, add_zero, zero_mul]
  have : GoFloat.toI32 (0 : ℝ) = 0 := by
    have := toI32_int 0 (by norm_num) (by norm_num)
    simpa using this
  rw [this]

/-! ### C49, C50 -/

/-- The mapping of a `Target` option. -/
noncomputable def targetMap (vb : Bounds ℝ) (x y w h : ℝ) : P2 → P2 := affine (options vb [.target x y w h]).target

theorem targetMap_eq (vb : Bounds ℝ) (x y w h : ℝ) (p : P2) :
    targetMap vb x y w h p = ((p.1 + (x - vb.x)) * (w / vb.w), (p.2 + (y - vb.y)) * (h / vb.h)) := by
  simp only [targetMap, options, List.foldl_cons, List.foldl_nil, RenderOption.apply, affine, Matrix2D.identity, Matrix2D.translate,
    Matrix2D.scale, real_add, real_mul, real_sub, real_div, real_num]
  norm_num
  constructor <;> ring

/-- C49, exact condition: the two corners of the view box go to the two corners of the target rectangle precisely when the target has
its corner at zero, or the size of the view box, in each direction. -/
theorem C49_target_partial (vb : Bounds ℝ) (hw : vb.w ≠ 0) (hh : vb.h ≠ 0) (x y w h : ℝ) :
    (targetMap vb x y w h (vb.x, vb.y) = (x, y) ∧ targetMap vb x y w h (vb.x + vb.w, vb.y + vb.h) = (x + w, y + h)) ↔
      (x = 0 ∨ w = vb.w) ∧ (y = 0 ∨ h = vb.h) := by
  rw [targetMap_eq, targetMap_eq]
  simp only [Prod.mk.injEq]
  have e : ∀ (a v x w : ℝ), v ≠ 0 → ((a + (x - a)) * (w / v) = x ↔ (x = 0 ∨ w = v)) := by
    intro a v x w hv
    rw [show (a + (x - a)) * (w / v) = x * w / v by ring, div_eq_iff hv]
    constructor
    · intro h
      have : x * (w - v) = 0 := by linarith
      rcases mul_eq_zero.1 this with h | h
      · exact .inl h
      · exact .inr (by linarith)
    · rintro (h | h)
      · rw [h]; ring
      · rw [h]
  have e2 : ∀ (a v x w : ℝ), v ≠ 0 → ((a + v + (x - a)) * (w / v) = x + w ↔ (x = 0 ∨ w = v)) := by
    intro a v x w hv
    rw [← e a v x w hv]
    have : (a + v + (x - a)) * (w / v) = (a + (x - a)) * (w / v) + w := by field_simp; ring
    rw [this]
    constructor <;> intro h <;> linarith
  rw [e _ _ _ _ hw, e _ _ _ _ hh, e2 _ _ _ _ hw, e2 _ _ _ _ hh]
  tauto

/-- C49 is false in general: for the view box 0 0 10 10 and Target(5, 0, 20, 10) the corner is drawn at (10, 0). -/
theorem C49_target_false : targetMap ⟨0, 0, 10, 10⟩ 5 0 20 10 (0, 0) = (10, 0) := by
  rw [targetMap_eq]; norm_num

/-- C50, exact condition for any target matrix: the drawing matrix is the target after the style's transform precisely when the two
commute in this sense. -/
theorem C50_order_partial (s t : Matrix2D ℝ) : (∀ p, affine (s.mult t) p = affine t (affine s p)) ↔
    s.c * t.b = s.b * t.c ∧ s.b * t.a + s.d * t.b = t.b * s.a + t.d * s.b ∧ s.a * t.c + s.c * t.d = t.a * s.c + t.c * s.d ∧
      s.a * t.e + s.c * t.f + s.e * t.a = t.a * s.e + t.c * s.f + t.e ∧ s.b * t.e + s.d * t.f + s.f * t.d = t.b * s.e + t.d * s.f + t.f := by
  constructor
  · intro h
    have h0 := h (0, 0)
    have h1 := h (1, 0)
    have h2 := h (0, 1)
    simp only [Matrix2D.mult, affine, real_add, real_mul, Prod.mk.injEq, mul_zero, mul_one, add_zero, zero_add] at h0 h1 h2
    refine ⟨?_, ?_, ?_, ?_, ?_⟩
    · linarith [h0.1, h1.1]
    · linarith [h0.2, h1.2]
    · linarith [h0.1, h2.1]
    · linarith [h0.1]
    · linarith [h0.2]
  · rintro ⟨h1, h2, h3, h4, h5⟩ p
    simp only [Matrix2D.mult, affine, real_add, real_mul, Prod.mk.injEq]
    constructor
    · linear_combination p.1 * h1 + p.2 * h3 + h4
    · linear_combination p.1 * h2 - p.2 * h1 + h5

/-- C50 for the `Target` option: right precisely when the scaling is uniform or the transform does not mix the axes, and the
transform's linear part leaves the target's translation alone. -/
theorem C50_target_partial (vb : Bounds ℝ) (x y w h : ℝ) (s : Matrix2D ℝ) :
    (∀ p, affine (s.mult (options vb [.target x y w h]).target) p = targetMap vb x y w h (affine s p)) ↔
      s.b * (w / vb.w - h / vb.h) = 0 ∧ s.c * (w / vb.w - h / vb.h) = 0 ∧
        s.a * ((x - vb.x) * (w / vb.w)) + s.c * ((y - vb.y) * (h / vb.h)) = (x - vb.x) * (w / vb.w) ∧
        s.b * ((x - vb.x) * (w / vb.w)) + s.d * ((y - vb.y) * (h / vb.h)) = (y - vb.y) * (h / vb.h) := by
  have e : (options vb [.target x y w h]).target = ⟨w / vb.w, 0, 0, h / vb.h, (x - vb.x) * (w / vb.w), (y - vb.y) * (h / vb.h)⟩ := by
    simp only [options, List.foldl_cons, List.foldl_nil, RenderOption.apply, Matrix2D.identity, Matrix2D.translate,
      Matrix2D.scale, real_add, real_mul, real_sub, real_div, real_num]
    norm_num
  unfold targetMap
  rw [C50_order_partial, e]
  simp only [mul_zero, zero_mul, add_zero, zero_add]
  constructor
  · rintro ⟨-, h2, h3, h4, h5⟩
    exact ⟨by linarith, by linarith, by linarith, by linarith⟩
  · rintro ⟨h2, h3, h4, h5⟩
    exact ⟨trivial, by linarith, by linarith, by linarith, by linarith⟩

/-- C50 is right for a target with the view box's own corner and a uniform scale, for every transform. -/
example (s : Matrix2D ℝ) (p : P2) :
    affine (s.mult (options ⟨1, 2, 10, 20⟩ [.target 1 2 30 60]).target) p = targetMap ⟨1, 2, 10, 20⟩ 1 2 30 60 (affine s p) :=
  (C50_target_partial _ _ _ _ _ s).2 (by norm_num) p

/-- C50 is false in general: a picture shifted by its target and a path scaled by two. -/
theorem C50_order_false : ¬ ∀ (vb : Bounds ℝ) (x y w h : ℝ) (s : Matrix2D ℝ) (p : P2), vb.w ≠ 0 → vb.h ≠ 0 →
    affine (s.mult (options vb [.target x y w h]).target) p = targetMap vb x y w h (affine s p) := by
  intro H
  have := (C50_target_partial ⟨0, 0, 10, 10⟩ 5 0 10 10 ⟨2, 0, 0, 2, 0, 0⟩).1 fun p => H _ _ _ _ _ _ p (by norm_num) (by norm_num)
  norm_num at this

/-! ### C51, C52 -/

/-- In draw2d and gg a move comes with a call that closes what was drawn before. -/
def withClose (m : Matrix2D F) (op : Op) : List (Event F) :=
  match op with
  | .moveTo _ => [.close, penOf m.tFixed op]
  | _ => [penOf m.tFixed op]

theorem d2_op (m : Matrix2D F) (op : Op) : (Draw2d.drawTo op m).flatMap d2Events = withClose m op := by cases op <;> rfl

theorem gg_op (m : Matrix2D F) (op : Op) : (GG.drawTo op m).flatMap ggEvents = withClose m op := by cases op <;> rfl

theorem rx_op (m : Matrix2D F) (op : Op) : (Rx.drawTo op m).flatMap rxEvents = [penOf m.tFixed op] := by cases op <;> rfl

theorem flatMap_map_eq {α β γ δ : Type} (l : List α) (f : α → List β) (g : β → List γ) (k : α → List γ) (h : ∀ a, (f a).flatMap g = k a) :
    (l.flatMap f).flatMap g = l.flatMap k := by
  rw [List.flatMap_assoc]
  congr 1
  funext a
  exact h a

theorem d2_path (p : SvgPath F) (opt : RenderOptions F) : (Draw2d.drawTransformed p opt).flatMap d2Events =
    p.path.flatMap (withClose (p.style.transform.mult opt.target)) ++ paintOf p.style := by
  unfold Draw2d.drawTransformed paintOf
  simp only [List.flatMap_append]
  rw [flatMap_map_eq (δ := Unit) p.path _ d2Events (withClose (p.style.transform.mult opt.target)) (d2_op _)]
  cases p.style.fillerColor <;> cases p.style.linerColor <;> simp [d2Events]

/-- C51 and C52 for draw2d, what is true: for each path in document order one call per operation, of the same kind, in order, with the
transformed points, then the fill and the stroke exactly when painted; but each move is preceded by a close. Full claim: with
`penOf` in place of `withClose`; false, see `C51_draw2d_false`. -/
theorem C51_draw2d_partial (s : Svg F) (opts : List (RenderOption F)) : (Draw2d.draw s opts).flatMap d2Events =
    s.svgPaths.flatMap fun p => p.path.flatMap (withClose (p.style.transform.mult (options s.viewBox opts).target)) ++ paintOf p.style := by
  unfold Draw2d.draw
  exact flatMap_map_eq (δ := Unit) _ _ _ _ fun p => d2_path p _

theorem gg_fill {st : PathStyle F} {o : F} {fs : List (GGCall F)} (h : GG.fillSetup st o = some fs) : fs.flatMap ggEvents = [] := by
  unfold GG.fillSetup at h
  split at h
  · rw [Option.some.injEq] at h; subst h; rfl
  · rw [Option.some.injEq] at h; subst h; rfl
  · obtain ⟨p, -, rfl⟩ := Option.map_eq_some_iff.1 h; rfl

theorem gg_masked {p : SvgPath F} {m : Matrix2D F} {o : F} {clip cs : List (GGCall F)} (hc : clip.flatMap ggEvents = [])
    (h : GG.drawMasked p m o clip = .ok cs) : cs.flatMap ggEvents = p.path.flatMap (withClose m) ++ paintOf p.style := by
  unfold GG.drawMasked at h
  split at h
  · exact nomatch h
  · rename_i fs hf
    rw [GG.Drawn.ok.injEq] at h
    subst h
    simp only [List.flatMap_append, hc, gg_fill hf, List.nil_append]
    rw [flatMap_map_eq (δ := Unit) p.path _ ggEvents (withClose m) (gg_op _)]
    unfold GG.strokeSetup GG.finish paintOf
    cases p.style.fillerColor <;> cases p.style.linerColor <;> simp [ggEvents]

theorem gg_path {s : Svg F} {fuel : Nat} {p : SvgPath F} {m : Matrix2D F} {o : F} {cs : List (GGCall F)}
    (h : GG.drawTransformed s fuel p m o = .ok cs) : cs.flatMap ggEvents = p.path.flatMap (withClose m) ++ paintOf p.style := by
  unfold GG.drawTransformed at h
  split at h
  · exact gg_masked rfl h
  · cases fuel with
    | zero => exact nomatch h
    | succ fuel =>
      dsimp only at h
      split at h
      · exact gg_masked rfl h
      · split at h
        · exact gg_masked rfl h
        · exact nomatch h
        · exact nomatch h

theorem gg_all {f : SvgPath F → GG.Drawn (List (GGCall F))} {k : SvgPath F → List (Event F)}
    (hf : ∀ p cs, f p = .ok cs → cs.flatMap ggEvents = k p) : ∀ (ps : List (SvgPath F)) (cs : List (GGCall F)), GG.drawAll f ps = .ok cs →
      cs.flatMap ggEvents = ps.flatMap k
  | [], cs, h => by rw [GG.drawAll, GG.Drawn.ok.injEq] at h; subst h; rfl
  | p :: ps, cs, h => by
    rw [GG.drawAll] at h
    split at h
    · rename_i c1 h1
      split at h
      · rename_i c2 h2
        rw [GG.Drawn.ok.injEq] at h
        subst h
        rw [List.flatMap_append, hf p c1 h1, gg_all hf ps c2 h2, List.flatMap_cons]
      · exact nomatch h
      · exact nomatch h
    · exact nomatch h
    · exact nomatch h

/-- C51 and C52 for gg, whenever drawing ends without a panic; again each move is preceded by a close. -/
theorem C51_gg_partial {s : Svg F} {fuel : Nat} {opts : List (RenderOption F)} {cs : List (GGCall F)} (h : GG.draw s fuel opts = .ok cs) :
    cs.flatMap ggEvents = s.svgPaths.flatMap fun p =>
      p.path.flatMap (withClose (p.style.transform.mult (options s.viewBox opts).target)) ++ paintOf p.style :=
  gg_all (fun _ _ hp => gg_path hp) _ _ h

/-- The pen movements and paints of one of the two rasterx objects: `true` for the filler, `false` for the stroker. Drawing with the
filler is a fill, drawing with the stroker a stroke. -/
def rxEventsOf : Bool × RxCall F → List (Event F)
  | (true, .draw) => [.fill]
  | (false, .draw) => [.stroke]
  | (_, c) => rxEvents c

theorem rx_tagged (b : Bool) (m : Matrix2D F) (path : Path) :
    ((path.flatMap fun op => Rx.drawTo op m).map fun x => (b, x)).flatMap rxEventsOf = path.map (penOf m.tFixed) := by
  induction path with
  | nil => rfl
  | cons op path ih =>
    rw [List.flatMap_cons, List.map_append, List.flatMap_append, ih, List.map_cons]
    cases op <;> cases b <;> rfl

/-- C51 and C52 for rasterx: for each path in document order, if it has a fill paint its operations go to the filler, one call each, and
are filled; then, if it has a line paint, to the stroker, and are stroked. -/
theorem C51_rasterx [RxEnv F] (s : Svg F) (opts : List (RenderOption F)) : (Rx.draw s opts).flatMap rxEventsOf =
    s.svgPaths.flatMap fun p =>
      (if p.style.fillerColor.isSome then p.path.map (penOf (p.style.transform.mult (options s.viewBox opts).target).tFixed) ++ [.fill] else []) ++
      (if p.style.linerColor.isSome then p.path.map (penOf (p.style.transform.mult (options s.viewBox opts).target).tFixed) ++ [.stroke] else []) := by
  unfold Rx.draw
  refine flatMap_map_eq (δ := Unit) _ _ _ _ fun p => ?_
  unfold Rx.drawTransformed
  rw [List.flatMap_append]
  congr 1
  · unfold Rx.fillCalls
    cases p.style.fillerColor with
    | none => rfl
    | some c =>
      simp only [List.map_append, List.flatMap_append, rx_tagged]
      simp [rxEventsOf, rxEvents]
  · unfold Rx.strokeCalls
    cases p.style.linerColor with
    | none => rfl
    | some c =>
      simp only [List.map_append, List.flatMap_append, rx_tagged]
      simp [rxEventsOf, rxEvents]

theorem filter_pens (m : Matrix2D F) (path : Path) : (path.flatMap (withClose m)).filter Event.isPaint = [] := by
  induction path with
  | nil => rfl
  | cons op path ih => rw [List.flatMap_cons, List.filter_append, ih]; cases op <;> rfl

theorem filter_map_pens (f : Pt → Pt) (path : Path) : (path.map (penOf (F := F) f)).filter Event.isPaint = [] := by
  induction path with
  | nil => rfl
  | cons op path ih => rw [List.map_cons, List.filter_cons, ih]; cases op <;> rfl

theorem filter_paints (st : PathStyle F) : (paintOf st).filter Event.isPaint = paintOf st := by
  unfold paintOf
  split <;> split <;> rfl

/-- C52: the three renderers fill and stroke exactly when painted, the fill first, path after path. -/
theorem C52_fill_and_stroke [RxEnv F] (s : Svg F) (opts : List (RenderOption F)) :
    ((Draw2d.draw s opts).flatMap d2Events).filter Event.isPaint = s.svgPaths.flatMap (fun p => paintOf p.style) ∧
    (∀ fuel cs, GG.draw s fuel opts = .ok cs → (cs.flatMap ggEvents).filter Event.isPaint = s.svgPaths.flatMap fun p => paintOf p.style) ∧
    ((Rx.draw s opts).flatMap rxEventsOf).filter Event.isPaint = s.svgPaths.flatMap fun p => paintOf p.style := by
  refine ⟨?_, fun fuel cs h => ?_, ?_⟩
  · rw [C51_draw2d_partial, List.filter_flatMap]
    congr 1
    funext p
    rw [List.filter_append, filter_pens, filter_paints]; rfl
  · rw [C51_gg_partial h, List.filter_flatMap]
    congr 1
    funext p
    rw [List.filter_append, filter_pens, filter_paints]; rfl
  · rw [C51_rasterx, List.filter_flatMap]
    congr 1
    funext p
    unfold paintOf
    rw [List.filter_append]
    congr 1
    · split
      · rw [List.filter_append, filter_map_pens]; rfl
      · rfl
    · split
      · rw [List.filter_append, filter_map_pens]; rfl
      · rfl

/-! ### C53 -/

/-- C53 for opacities from 0 to 1: the alpha is that of the colour scaled to 16 bits, times the opacity, rounded down, and cut to 8 bits
again; it is not larger than the colour's, not smaller than the rounded-down product, and at most one more than that. -/
theorem C53_alpha_partial {c : Color} (hc : c.a < 256) {o : ℝ} (h0 : 0 ≤ o) (h1 : o ≤ 1) :
    ((toColor c o).a : ℤ) = ⌊(c.a : ℝ) * 257 * o⌋ / 256 ∧ (toColor c o).a ≤ c.a ∧ ⌊(c.a : ℝ) * o⌋ ≤ (toColor c o).a ∧
      ((toColor c o).a : ℤ) ≤ ⌊(c.a : ℝ) * o⌋ + 1 := by
  have ha : (c.a : ℝ) ≤ 255 := by exact_mod_cast Nat.le_of_lt_succ hc
  have ha0 : (0 : ℝ) ≤ c.a := Nat.cast_nonneg _
  have hv0 : 0 ≤ (c.a : ℝ) * 257 * o := by positivity
  have hv1 : (c.a : ℝ) * 257 * o ≤ c.a * 257 := by nlinarith
  have e : (toColor c o).a = (truncR ((c.a : ℝ) * 257 * o) % 2 ^ 32).toNat / 256 % 256 := by
    simp only [toColor, rgba16]
    change (truncR (((c.a * 257 : ℕ) : ℤ) * o) % 2 ^ 32).toNat / 256 % 256 = _
    push_cast
    rfl
  have ht : truncR ((c.a : ℝ) * 257 * o) = ⌊(c.a : ℝ) * 257 * o⌋ := by unfold truncR; rw [if_pos hv0]
  have hf0 : 0 ≤ ⌊(c.a : ℝ) * 257 * o⌋ := Int.floor_nonneg.2 hv0
  have hf1 : ⌊(c.a : ℝ) * 257 * o⌋ ≤ c.a * 257 := by
    have : ⌊(c.a : ℝ) * 257 * o⌋ ≤ ⌊((c.a * 257 : ℤ) : ℝ)⌋ := Int.floor_le_floor (by push_cast; exact hv1)
    rwa [Int.floor_intCast] at this
  have hb : (c.a : ℤ) ≤ 255 := by omega
  have key : ((toColor c o).a : ℤ) = ⌊(c.a : ℝ) * 257 * o⌋ / 256 := by
    rw [e, ht]
    omega
  refine ⟨key, by omega, ?_, ?_⟩
  · have h2 : ⌊(c.a : ℝ) * o⌋ * 256 ≤ ⌊(c.a : ℝ) * 257 * o⌋ := by
      rw [Int.le_floor]
      push_cast
      have := Int.floor_le ((c.a : ℝ) * o)
      nlinarith [mul_nonneg ha0 h0]
    omega
  · have h2 : ⌊(c.a : ℝ) * 257 * o⌋ < (⌊(c.a : ℝ) * o⌋ + 2) * 256 := by
      rw [Int.floor_lt]
      push_cast
      have := Int.lt_floor_add_one ((c.a : ℝ) * o)
      have h3 : (c.a : ℝ) * o ≤ 255 := by nlinarith
      nlinarith
    omega

/-- C53: more opacity never gives less alpha, between 0 and 1. -/
theorem C53_monotone {c : Color} (hc : c.a < 256) {o o' : ℝ} (h0 : 0 ≤ o) (h : o ≤ o') (h1 : o' ≤ 1) : (toColor c o).a ≤ (toColor c o').a := by
  have e1 := (C53_alpha_partial hc h0 (h.trans h1)).1
  have e2 := (C53_alpha_partial hc (h0.trans h) h1).1
  have : ⌊(c.a : ℝ) * 257 * o⌋ ≤ ⌊(c.a : ℝ) * 257 * o'⌋ := Int.floor_le_floor (mul_le_mul_of_nonneg_left h (by positivity))
  omega

/-- C53: with full opacity an opaque colour stays as it is, and with opacity 0 nothing is left. -/
theorem C53_full {c : Color} (hr : c.r < 256) (hg : c.g < 256) (hb : c.b < 256) (ha : c.a = 255) :
    toColor c (1 : ℝ) = c ∧ (toColor c (0 : ℝ)).a = 0 := by
  have h1 := (C53_alpha_partial (c := c) (by omega) (o := 1) (by norm_num) (by norm_num)).1
  have h0 := (C53_alpha_partial (c := c) (by omega) (o := 0) (by norm_num) (by norm_num)).1
  rw [ha] at h1 h0
  have e1 : ⌊((255 : ℕ) : ℝ) * 257 * 1⌋ = 65535 := by
    rw [Int.floor_eq_iff]; norm_num
  have e0 : ⌊((255 : ℕ) : ℝ) * 257 * 0⌋ = 0 := by simp
  rw [e1] at h1
  rw [e0] at h0
  refine ⟨?_, by omega⟩
  obtain ⟨r, g, b, a⟩ := c
  simp only at hr hg hb ha
  subst ha
  have h2 : (toColor ⟨r, g, b, 255⟩ (1 : ℝ)).a = 255 := by omega
  have h3 : toColor ⟨r, g, b, 255⟩ (1 : ℝ) = ⟨r * 257 * 255 / 255 / 256 % 256, g * 257 * 255 / 255 / 256 % 256, b * 257 * 255 / 255 / 256 % 256,
      (toColor ⟨r, g, b, 255⟩ (1 : ℝ)).a⟩ := rfl
  have h4 : ∀ n : Nat, n < 256 → n * 257 * 255 / 255 / 256 % 256 = n := by
    intro n hn
    have h5 : n * 257 / 256 = n := Nat.div_eq_of_lt_le (by omega) (by omega)
    rw [Nat.mul_div_cancel _ (by norm_num), h5, Nat.mod_eq_of_lt hn]
  rw [h3, h2, h4 r hr, h4 g hg, h4 b hb]

/-- C53 is false: the alpha is not always the rounded-down product, and it wraps around above opacity 1 (here 1.01 gives 2). -/
theorem C53_false : ((toColor ⟨0, 0, 0, 255⟩ (999 / 1000 : ℝ)).a : ℤ) ≠ ⌊(255 : ℝ) * (999 / 1000)⌋ ∧ (toColor ⟨0, 0, 0, 255⟩ (101 / 100 : ℝ)).a = 2 := by
  constructor
  · rw [(C53_alpha_partial (c := ⟨0, 0, 0, 255⟩) (by norm_num) (o := 999 / 1000) (by norm_num) (by norm_num)).1]
    have e1 : ⌊((255 : ℕ) : ℝ) * 257 * (999 / 1000)⌋ = 65469 := by rw [Int.floor_eq_iff]; norm_num
    have e2 : ⌊(255 : ℝ) * (999 / 1000)⌋ = 254 := by rw [Int.floor_eq_iff]; norm_num
    simp only [e1, e2]
    norm_num
  · have e : (toColor ⟨0, 0, 0, 255⟩ (101 / 100 : ℝ)).a = (truncR (((255 * 257 : ℕ) : ℤ) * (101 / 100)) % 2 ^ 32).toNat / 256 % 256 := rfl
    have e1 : truncR (((255 * 257 : ℕ) : ℤ) * (101 / 100)) = 66190 := by
      unfold truncR
      rw [if_pos (by positivity), Int.floor_eq_iff]
      norm_num
    rw [e, e1]; rfl

/-! ### C54 -/

/-- The mask a path is drawn through: the last of its list, if it is in the table. -/
def maskOf (s : Svg F) (p : SvgPath F) : Option (SvgMask F) := ((p.style.masks.read s.arrays).getLast?).bind s.svgMasks.find

/-- More fuel changes nothing once drawing has ended. -/
theorem drawAll_ne {f : SvgPath F → GG.Drawn (List (GGCall F))} : ∀ {ps : List (SvgPath F)}, (∀ p ∈ ps, f p ≠ .diverge) → GG.drawAll f ps ≠ .diverge
  | [], _ => by simp [GG.drawAll]
  | p :: ps, h => by
    have hp := h p List.mem_cons_self
    have ih := drawAll_ne fun q hq => h q (List.mem_cons_of_mem _ hq)
    rw [GG.drawAll]
    split
    · split
      · simp
      · simp
      · rename_i h'; exact absurd h' ih
    · simp
    · rename_i h'; exact absurd h' hp

theorem drawMasked_ne (p : SvgPath F) (m : Matrix2D F) (o : F) (clip : List (GGCall F)) : GG.drawMasked p m o clip ≠ .diverge := by
  unfold GG.drawMasked; split <;> simp

/-- C54 for tables in which no mask leads back to itself: if every mask has a rank larger than the ranks of the masks used by its
content, drawing ends. -/
theorem drawTransformed_ranked (s : Svg F) (rank : SvgPath F → Nat)
    (h : ∀ p mask, maskOf s p = some mask → ∀ q ∈ mask.svgPaths, rank q < rank p) :
    ∀ (fuel : Nat) (p : SvgPath F), rank p < fuel → ∀ m o, GG.drawTransformed s fuel p m o ≠ .diverge
  | 0, _, hp => by omega
  | fuel + 1, p, hp => by
    intro m o
    unfold GG.drawTransformed
    split
    · exact drawMasked_ne _ _ _ _
    · rename_i id hid
      dsimp only
      split
      · exact drawMasked_ne _ _ _ _
      · rename_i mask hm
        have hmask : maskOf s p = some mask := by unfold maskOf; rw [hid]; exact hm
        have := drawAll_ne (f := fun q => GG.drawTransformed s fuel q m (num 1)) fun q hq =>
          drawTransformed_ranked s rank h fuel q (by have := h p mask hmask q hq; omega) m (num 1)
        split
        · exact drawMasked_ne _ _ _ _
        · simp
        · rename_i h'; exact absurd h' this

theorem le_foldr_max (f : SvgPath F → Nat) (l : List (SvgPath F)) : ∀ p ∈ l, f p ≤ (l.map f).foldr max 0 := by
  induction l with
  | nil => simp
  | cons a l ih =>
    intro p hp
    rw [List.map_cons, List.foldr_cons]
    rcases List.mem_cons.1 hp with rfl | hp
    · exact Nat.le_max_left _ _
    · exact (ih p hp).trans (Nat.le_max_right _ _)

/-- C54 for tables in which no mask leads back to itself. -/
theorem C54_masks_partial (s : Svg F) (rank : SvgPath F → Nat)
    (h : ∀ p mask, maskOf s p = some mask → ∀ q ∈ mask.svgPaths, rank q < rank p) (opts : List (RenderOption F)) :
    ∃ fuel, ∀ fuel' ≥ fuel, GG.draw s fuel' opts ≠ .diverge := by
  refine ⟨(s.svgPaths.map rank).foldr max 0 + 1, fun fuel' hf => drawAll_ne fun p hp => ?_⟩
  have := le_foldr_max rank s.svgPaths p hp
  exact drawTransformed_ranked s rank h fuel' p (by omega) _ _

/-- C54 for masks whose content is not masked itself. -/
theorem C54_plain_masks_partial (s : Svg F) (h : ∀ e ∈ s.svgMasks, ∀ q ∈ e.2.svgPaths, q.style.masks.read s.arrays = [])
    (opts : List (RenderOption F)) : ∃ fuel, ∀ fuel' ≥ fuel, GG.draw s fuel' opts ≠ .diverge := by
  refine C54_masks_partial s (fun p => (p.style.masks.read s.arrays).length) (fun p mask hm q hq => ?_) opts
  unfold maskOf at hm
  obtain ⟨id, h1, h2⟩ := Option.bind_eq_some_iff.1 hm
  have hne : p.style.masks.read s.arrays ≠ [] := by intro e; rw [e] at h1; exact nomatch h1
  have hmem : ∃ e ∈ s.svgMasks, e.2 = mask := by
    revert h2
    show List.lookup id s.svgMasks = some mask → _
    generalize s.svgMasks = l
    induction l with
    | nil => intro h2; exact nomatch h2
    | cons e l ih =>
      intro h2
      rw [List.lookup_cons] at h2
      split at h2
      · exact ⟨e, List.mem_cons_self, Option.some.inj h2⟩
      · obtain ⟨e', he', h3⟩ := ih h2
        exact ⟨e', List.mem_cons_of_mem _ he', h3⟩
  obtain ⟨e, he, rfl⟩ := hmem
  simp only [h e he q hq, List.length_nil]
  exact List.length_pos_iff.2 hne

/-- A mask one of whose paths is drawn through the mask itself is never done. -/
theorem C54_self_false {s : Svg F} {mask : SvgMask F} {q : SvgPath F} {ps : List (SvgPath F)} (hm : mask.svgPaths = q :: ps)
    (hq : maskOf s q = some mask) {p : SvgPath F} (hp : maskOf s p = some mask) : ∀ fuel m o, GG.drawTransformed s fuel p m o = .diverge := by
  have key : ∀ fuel (p : SvgPath F), maskOf s p = some mask → ∀ m o, GG.drawTransformed s fuel p m o = .diverge := by
    intro fuel
    induction fuel with
    | zero =>
      intro p hp m o
      unfold maskOf at hp
      obtain ⟨id, h1, h2⟩ := Option.bind_eq_some_iff.1 hp
      unfold GG.drawTransformed
      rw [h1]
    | succ fuel ih =>
      intro p hp m o
      unfold maskOf at hp
      obtain ⟨id, h1, h2⟩ := Option.bind_eq_some_iff.1 hp
      unfold GG.drawTransformed
      rw [h1]
      dsimp only
      rw [h2]
      dsimp only
      rw [hm, GG.drawAll, ih q hq]
  exact fun fuel => key fuel p hp

/-! ### C62 -/

section Painted

variable {C P W : Type} {step : Brush P W → C → Brush P W × List (Painted P W)}

def brushAfter (step : Brush P W → C → Brush P W × List (Painted P W)) (b : Brush P W) (cs : List C) : Brush P W :=
  cs.foldl (fun b c => (step b c).1) b

theorem painted_append (b : Brush P W) (as bs : List C) :
    painted step b (as ++ bs) = painted step b as ++ painted step (brushAfter step b as) bs := by
  induction as generalizing b with
  | nil => rfl
  | cons a as ih => rw [List.cons_append, painted, painted, ih, List.append_assoc]; rfl

/-- calls that do not touch the brush and paint nothing -/
theorem painted_quiet {cs : List C} (h : ∀ c ∈ cs, ∀ b, step b c = (b, [])) (b : Brush P W) :
    painted step b cs = [] ∧ brushAfter step b cs = b := by
  induction cs with
  | nil => exact ⟨rfl, rfl⟩
  | cons c cs ih =>
    have hc := h c List.mem_cons_self b
    have ih := ih fun c hc => h c (List.mem_cons_of_mem _ hc)
    unfold painted brushAfter
    rw [List.foldl_cons, hc]
    exact ih

/-- If each block paints the same whatever the brush, the blocks do in turn. -/
theorem painted_flatMap {α : Type} {f : α → List C} {g : α → List (Painted P W)} {l : List α} (h : ∀ a ∈ l, ∀ b, painted step b (f a) = g a)
    (b : Brush P W) : painted step b (l.flatMap f) = l.flatMap g := by
  induction l generalizing b with
  | nil => rfl
  | cons a l ih =>
    rw [List.flatMap_cons, painted_append, h a List.mem_cons_self, ih (fun a ha => h a (List.mem_cons_of_mem _ ha)), List.flatMap_cons]

end Painted

theorem d2_quiet (m : Matrix2D F) (path : Path) : ∀ c ∈ path.flatMap (fun op => Draw2d.drawTo op m), ∀ b, d2Step b c = (b, []) := by
  intro c hc b
  obtain ⟨op, -, h⟩ := List.mem_flatMap.1 hc
  clear hc
  revert c
  cases op <;> simp [Draw2d.drawTo, d2Step]

theorem gg_quiet (m : Matrix2D F) (path : Path) : ∀ c ∈ path.flatMap (fun op => GG.drawTo op m), ∀ b, ggStep b c = (b, []) := by
  intro c hc b
  obtain ⟨op, -, h⟩ := List.mem_flatMap.1 hc
  clear hc
  revert c
  cases op <;> simp [GG.drawTo, ggStep]

theorem rx_quiet (t : Bool) (m : Matrix2D F) (path : Path) :
    ∀ c ∈ (path.flatMap (fun op => Rx.drawTo op m)).map (fun x => (t, x)), ∀ b, rxStep b c = (b, []) := by
  intro c hc b
  obtain ⟨c', hc', rfl⟩ := List.mem_map.1 hc
  obtain ⟨op, -, h⟩ := List.mem_flatMap.1 hc'
  clear hc hc'
  revert c'
  cases op <;> cases t <;> simp [Rx.drawTo, rxStep]

/-- C62 for draw2d: every fill and stroke is made with the paint, rule and width of its style. -/
theorem C62_draw2d (s : Svg F) (opts : List (RenderOption F)) (h : ∀ p ∈ s.svgPaths, PlainPaints p.style) (b : Brush Color F) :
    painted d2Step b (Draw2d.draw s opts) = s.svgPaths.flatMap fun p =>
      wanted toColor (fun w => w *. (p.style.transform.mult (options s.viewBox opts).target).lineWidthScale) p.style (options s.viewBox opts).opacity := by
  refine painted_flatMap (fun p hp b => ?_) b
  obtain ⟨hf, hl⟩ := h p hp
  unfold Draw2d.drawTransformed wanted
  simp only [List.append_assoc]
  generalize hq : p.path.flatMap (fun op => Draw2d.drawTo op (p.style.transform.mult (options s.viewBox opts).target)) = q
  have quiet := painted_quiet (step := d2Step) (hq ▸ d2_quiet (p.style.transform.mult (options s.viewBox opts).target) p.path)
  rcases hfc : p.style.fillerColor with _ | c | g
  · rcases hlc : p.style.linerColor with _ | c' | g'
    · rw [List.nil_append, List.nil_append, List.append_nil, (quiet b).1]; rfl
    · rw [List.nil_append, painted_append, painted_append, (quiet _).1, (quiet _).2]; rfl
    · exact absurd hlc (hl g')
  · rcases hlc : p.style.linerColor with _ | c' | g'
    · rw [List.nil_append, painted_append, painted_append, (quiet _).1, (quiet _).2]; rfl
    · rw [painted_append, painted_append, painted_append, (quiet _).1, (quiet _).2]; rfl
    · exact absurd hlc (hl g')
  · exact absurd hfc (hf g)

/-- C62 for rasterx; the width is truncated to 1/64 px. -/
theorem C62_rasterx [RxEnv F] (s : Svg F) (opts : List (RenderOption F)) (h : ∀ p ∈ s.svgPaths, PlainPaints p.style) (b : Brush (RxPaint F) Int) :
    painted rxStep b (Rx.draw s opts) = s.svgPaths.flatMap fun p =>
      wanted .plain (fun w => GoFloat.toI32 (w *. num 64 *. (p.style.transform.mult (options s.viewBox opts).target).lineWidthScale)) p.style
        (options s.viewBox opts).opacity := by
  refine painted_flatMap (fun p hp b => ?_) b
  obtain ⟨hf, hl⟩ := h p hp
  unfold Rx.drawTransformed wanted
  rw [painted_append]
  have quiet := fun t => painted_quiet (rx_quiet t (p.style.transform.mult (options s.viewBox opts).target) p.path)
  congr 1
  · unfold Rx.fillCalls
    rcases hfc : p.style.fillerColor with _ | c | g
    · rfl
    · dsimp only
      simp only [List.map_append, List.append_assoc]
      rw [painted_append, painted_append, (quiet _ _).1, (quiet _ _).2]
      rfl
    · exact absurd hfc (hf g)
  · unfold Rx.strokeCalls
    rcases hlc : p.style.linerColor with _ | c' | g'
    · rfl
    · dsimp only
      simp only [List.map_append, List.append_assoc]
      rw [painted_append, painted_append, (quiet _ _).1, (quiet _ _).2]
      rfl
    · exact absurd hlc (hl g')

/-- What gg paints for a style with plain colours: when there is a stroke, the fill is made with the colour of the stroke. -/
def ggWanted (st : PathStyle F) (m : Matrix2D F) (opacity : F) : List (Painted (GGPattern F) F) :=
  match st.fillerColor, st.linerColor with
  | some (.plain _), some (.plain c') => [.fill (some (.solid (toColor c' (st.lineOpacity *. opacity)))) st.useNonZeroWinding,
      .stroke (some (.solid (toColor c' (st.lineOpacity *. opacity)))) (some (st.lineWidth *. m.lineWidthScale))]
  | _, _ => wanted (fun c o => .solid (toColor c o)) (fun w => w *. m.lineWidthScale) st opacity

theorem gg_masked_painted {p : SvgPath F} (h : PlainPaints p.style) {m : Matrix2D F} {o : F} {clip cs : List (GGCall F)}
    (hc : ∀ c ∈ clip, ∀ b, ggStep b c = (b, [])) (hd : GG.drawMasked p m o clip = .ok cs) (b : Brush (GGPattern F) F) :
    painted ggStep b cs = ggWanted p.style m o := by
  obtain ⟨hf, hl⟩ := h
  have quiet := painted_quiet (gg_quiet m p.path)
  have qc := painted_quiet hc
  unfold GG.drawMasked GG.fillSetup at hd
  unfold ggWanted wanted
  rcases hfc : p.style.fillerColor with _ | c | g
  · rw [hfc] at hd
    have hd := GG.Drawn.ok.inj hd
    subst hd
    simp only [List.append_assoc]
    rw [painted_append, (qc _).1, (qc _).2]
    unfold GG.strokeSetup GG.finish
    rw [hfc]
    rcases hlc : p.style.linerColor with _ | c' | g'
    · simp only [List.nil_append, List.append_nil, (quiet _).1]
    · dsimp only
      simp only [List.nil_append]
      rw [painted_append, painted_append, (quiet _).1, (quiet _).2]; rfl
    · exact absurd hlc (hl g')
  · rw [hfc] at hd
    have hd := GG.Drawn.ok.inj hd
    subst hd
    simp only [List.append_assoc]
    rw [painted_append, (qc _).1, (qc _).2]
    unfold GG.strokeSetup GG.finish
    rw [hfc]
    rcases hlc : p.style.linerColor with _ | c' | g'
    · dsimp only
      simp only [List.nil_append, List.append_nil]
      rw [painted_append, painted_append, (quiet _).1, (quiet _).2]; rfl
    · dsimp only
      rw [painted_append, painted_append, painted_append, (quiet _).1, (quiet _).2]; rfl
    · exact absurd hlc (hl g')
  · exact absurd hfc (hf g)

theorem gg_all_painted {f : SvgPath F → GG.Drawn (List (GGCall F))} {k : SvgPath F → List (Painted (GGPattern F) F)} :
    ∀ (ps : List (SvgPath F)), (∀ p ∈ ps, ∀ cs, f p = .ok cs → ∀ b, painted ggStep b cs = k p) → ∀ cs, GG.drawAll f ps = .ok cs →
      ∀ b, painted ggStep b cs = ps.flatMap k
  | [], _, cs, h, b => by rw [GG.drawAll, GG.Drawn.ok.injEq] at h; subst h; rfl
  | p :: ps, hf, cs, h, b => by
    rw [GG.drawAll] at h
    split at h
    · rename_i c1 h1
      split at h
      · rename_i c2 h2
        rw [GG.Drawn.ok.injEq] at h
        subst h
        rw [painted_append, hf p List.mem_cons_self c1 h1, gg_all_painted ps (fun q hq => hf q (List.mem_cons_of_mem _ hq)) c2 h2,
          List.flatMap_cons]
      · exact nomatch h
      · exact nomatch h
    · exact nomatch h
    · exact nomatch h

/-- C62 for gg, what is true: `ggWanted`. Full claim: with `wanted`, as for the others; false for every path with both paints in
different colours, see `C62_gg_false`. -/
theorem C62_gg_partial {s : Svg F} {fuel : Nat} {opts : List (RenderOption F)} (h : ∀ p ∈ s.svgPaths, PlainPaints p.style) {cs : List (GGCall F)}
    (hd : GG.draw s fuel opts = .ok cs) (b : Brush (GGPattern F) F) : painted ggStep b cs = s.svgPaths.flatMap fun p =>
      ggWanted p.style (p.style.transform.mult (options s.viewBox opts).target) (options s.viewBox opts).opacity := by
  refine gg_all_painted _ (fun p hp cs hd b => ?_) _ hd b
  unfold GG.drawTransformed at hd
  have one : ∀ (c : GGCall F), (∀ b, ggStep b c = (b, [])) → ∀ c' ∈ [c], ∀ b, ggStep b c' = (b, []) := by
    intro c hc c' h; rw [List.mem_singleton.1 h]; exact hc
  split at hd
  · exact gg_masked_painted (h p hp) (one _ fun _ => rfl) hd b
  · cases fuel with
    | zero => exact nomatch hd
    | succ fuel =>
      dsimp only at hd
      split at hd
      · exact gg_masked_painted (h p hp) (one _ fun _ => rfl) hd b
      · split at hd
        · exact gg_masked_painted (h p hp) (one _ fun _ => rfl) hd b
        · exact nomatch hd
        · exact nomatch hd

/-! ### C55 -/

/-- C55 for the transforms it is right for: those with equal scales on the axes. -/
theorem C55_uniform_partial (w k b c e f : ℝ) : w *. (⟨k, b, c, k, e, f⟩ : Matrix2D ℝ).lineWidthScale = w * k := by
  simp [Matrix2D.lineWidthScale]

/-- C55 for all transforms: the factor is the mean of the scales along the two axes, by which the transform lengthens a step to the right and a step
down in their own directions. -/
theorem C55_mean (w : ℝ) (M : Matrix2D ℝ) : w *. M.lineWidthScale =
    w * (((affine M (1, 0)).1 - (affine M (0, 0)).1 + ((affine M (0, 1)).2 - (affine M (0, 0)).2)) / 2) := by
  simp [Matrix2D.lineWidthScale, affine]

/-- For instance, stretching one axis only. -/
example : (3 : ℝ) *. ((Matrix2D.identity : Matrix2D ℝ).scale 2 4).lineWidthScale = 9 := by
  rw [C55_mean]
  simp [affine, Matrix2D.scale, Matrix2D.identity]
  norm_num

/-- C55 is false for rotations: the width is multiplied by the cosine, so it is kept only by a full turn, and a quarter turn makes it zero. -/
theorem C55_rotation_false (w a : ℝ) (hw : w ≠ 0) :
    (w *. ((Matrix2D.identity : Matrix2D ℝ).rotate a).lineWidthScale = w ↔ Real.cos a = 1) ∧
    w *. ((Matrix2D.identity : Matrix2D ℝ).rotate (Real.pi / 2)).lineWidthScale = 0 := by
  have e : ∀ a, ((Matrix2D.identity : Matrix2D ℝ).rotate a).lineWidthScale = Real.cos a := by
    intro a
    simp only [Matrix2D.lineWidthScale, Matrix2D.rotate, Matrix2D.mult, Matrix2D.identity, real_add, real_mul, real_div, real_num, real_cos, real_sin,
      real_neg]
    norm_num
  simp only [e, real_mul, Real.cos_pi_div_two, mul_zero, and_true]
  constructor
  · intro h
    have : w * (Real.cos a - 1) = 0 := by linarith
    rcases mul_eq_zero.1 this with h | h
    · exact absurd h hw
    · linarith
  · intro h; rw [h, mul_one]

/-! ### C60 -/

/-- C60 in objectBoundingBox units: the bounds become the extent, everything else stays, and the returned matrix maps a point by the
gradient matrix and then scales it by the size of the box. -/
theorem C60_bounding_box (g : Gradient ℝ) (hu : g.units = .objectBoundingBox) (mn mx : Pt) :
    (applyPathExtent g mn mx).1 = { g with bounds := ⟨(mn.x : ℝ) / 64, (mn.y : ℝ) / 64, (mx.x : ℝ) / 64 - (mn.x : ℝ) / 64, (mx.y : ℝ) / 64 - (mn.y : ℝ) / 64⟩ } ∧
    ∀ p, affine (applyPathExtent g mn mx).2 p =
      (((mx.x : ℝ) / 64 - (mn.x : ℝ) / 64) * (affine g.matrix p).1, ((mx.y : ℝ) / 64 - (mn.y : ℝ) / 64) * (affine g.matrix p).2) := by
  unfold applyPathExtent
  rw [hu]
  refine ⟨?_, fun p => ?_⟩
  · simp [real_ofInt]
  · simp only [affine, Matrix2D.mult, Matrix2D.identity, Matrix2D.scale, real_add, real_mul, real_sub, real_div, real_num, real_ofInt, Prod.mk.injEq]
    norm_num
    constructor <;> ring

/-- C60 in userSpaceOnUse units: nothing changes. -/
theorem C60_user_space (g : Gradient F) (hu : g.units = .userSpaceOnUse) (mn mx : Pt) : applyPathExtent g mn mx = (g, g.matrix) := by
  unfold applyPathExtent; rw [hu]

end GoSvg

namespace GoSvg

open Spec

section Examples

attribute [local instance] asciiEnv
attribute [local instance] dummyLibm

/-- The picture of a document that is read to its end without an error. -/
def svgOf (tokens : List Token) : Option (Svg F64) :=
  match parse (F := F64) 8 .strict tokens .eof with
  | .done (some svg) none _ => some svg
  | _ => none

/-- C51 is false for draw2d: an open path `M0 0 L10 0` followed by another subpath is closed on the way. -/
theorem C51_draw2d_false : (svgOf (elem "path" [("d", "M0 0 L8 0 M0 4 L8 4")])).map (fun s =>
    ((Draw2d.draw s [.target (num 0) (num 0) (num 1) (num 1)]).flatMap d2Events).count .close) = some 2 ∧
    pathsOf .strict (elem "path" [("d", "M0 0 L8 0 M0 4 L8 4")]) =
      some [[.moveTo ⟨0, 0⟩, .lineTo ⟨512, 0⟩, .moveTo ⟨0, 256⟩, .lineTo ⟨512, 256⟩]] := by decide +kernel

/-- C54 is false: a document with a mask that uses itself is parsed, and drawing it with gg never ends. -/
theorem C54_document_false : ∃ s, svgOf (elem "mask" [("id", "a")] (elem "rect" [("width", "8"), ("height", "8"), ("mask", "url(#a)")]) ++
      elem "rect" [("width", "8"), ("height", "8"), ("mask", "url(#a)")]) = some s ∧ ∀ fuel opts, GG.draw s fuel opts = .diverge := by
  have h : (match svgOf (elem "mask" [("id", "a")] (elem "rect" [("width", "8"), ("height", "8"), ("mask", "url(#a)")]) ++
      elem "rect" [("width", "8"), ("height", "8"), ("mask", "url(#a)")]) with
      | some s => match s.svgPaths with
        | [p] => match maskOf s p with
          | some mask => match mask.svgPaths with
            | q :: _ => decide (maskOf s q = some mask)
            | [] => false
          | none => false
        | _ => false
      | none => false) = true := by decide +kernel
  split at h
  · rename_i s hs
    refine ⟨s, hs, ?_⟩
    split at h
    · rename_i p hp
      split at h
      · rename_i mask hm
        split at h
        · rename_i q ps hq
          intro fuel opts
          unfold GG.draw
          rw [hp, GG.drawAll, C54_self_false hq (of_decide_eq_true h) hm]
        · exact nomatch h
      · exact nomatch h
    · exact nomatch h
  · exact nomatch h

/-- A document with a mask and a masked path meets the hypothesis of `C54_plain_masks_partial`. -/
example : (svgOf (elem "mask" [("id", "a")] (elem "rect" [("width", "8"), ("height", "8")]) ++
    elem "rect" [("width", "8"), ("height", "8"), ("mask", "url(#a)")])).map (fun s =>
      (s.svgMasks.map fun e => e.2.svgPaths.map fun q => q.style.masks.read s.arrays, s.svgPaths.map fun p => (maskOf s p).isSome)) =
    some ([[[]]], [true]) := by decide +kernel

/-- C53 applied: half opacity. -/
example : (toColor ⟨10, 20, 30, 255⟩ (1 / 2 : ℝ)).a ≤ 255 := (C53_alpha_partial (c := ⟨10, 20, 30, 255⟩) (by norm_num) (by norm_num) (by norm_num)).2.1

/-- C51 and C52 applied: a triangle filled in red, not stroked. -/
example : (svgOf (elem "path" [("d", "M0 0 L8 0 L8 8 Z"), ("fill", "red"), ("transform", "translate(1 0)")])).map (fun s =>
    (Draw2d.draw s [.target (num 0) (num 0) (num 1) (num 1)]).flatMap d2Events |>.filter Event.isPaint) = some [.fill] := by decide +kernel

/-- C62 is false for gg: a red square with a blue line is filled in blue. -/
theorem C62_gg_false : (svgOf (elem "rect" [("width", "8"), ("height", "8"), ("fill", "red"), ("stroke", "blue")])).map (fun s =>
    match GG.draw s 1 [.target (num 0) (num 0) (num 1) (num 1)] with
    | .ok cs => (painted ggStep {} cs).map fun
      | .fill p _ => p
      | .stroke p _ => p
    | _ => []) = some [some (.solid ⟨0, 0, 255, 255⟩), some (.solid ⟨0, 0, 255, 255⟩)] := by decide +kernel

/-- The same square in draw2d: its paints are plain, and it is filled in red and stroked in blue. -/
example : (svgOf (elem "rect" [("width", "8"), ("height", "8"), ("fill", "red"), ("stroke", "blue")])).map (fun s =>
    (s.svgPaths.map fun p => (p.style.fillerColor, p.style.linerColor),
      (painted d2Step {} (Draw2d.draw s [.target (num 0) (num 0) (num 1) (num 1)])).map fun
      | .fill p _ => p
      | .stroke p _ => p)) =
    some ([(some (.plain ⟨255, 0, 0, 255⟩), some (.plain ⟨0, 0, 255, 255⟩))], [some ⟨255, 0, 0, 255⟩, some ⟨0, 0, 255, 255⟩]) := by decide +kernel

/-- C48 applied. -/
example : (options (F := ℝ) ⟨0, 0, 1, 1⟩ [.opacity 0.5, .target 0 0 1 1, .opacity 0.25]).opacity = 0.25 :=
  C48_last_opacity _ [.opacity 0.5, .target 0 0 1 1] [] 0.25 (by simp)

end Examples

end GoSvg
