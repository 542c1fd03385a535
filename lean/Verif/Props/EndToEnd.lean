import Verif.Props.Documents
import Verif.Props.PathError
import Verif.Props.Float64Matrix
import Verif.Props.Initial
import Verif.Props.Transforms
import Verif.Props.Render

/-! C75: from the text of a document to the calls of the renderer, in binary64. -/

namespace GoSvg.Spec

/-- Where a point of user space is drawn if the view box with corner `(vx, vy)` fills a picture at the origin with `sx`, `sy` pixels per unit. -/
def onPicture (vx vy sx sy : ℝ) (p : Pnt ℝ) : Pnt ℝ := ((p.1 - vx) * sx, (p.2 - vy) * sy)

/-- A finite number less than `d` away from `r`. -/
def NumWithin (d : ℝ) (x : F64) (r : ℝ) : Prop := ∃ q : ℚ, Is x q ∧ |(q : ℝ) - r| < d

/-- Both coordinates of a call are numbers less than `dx` and `dy` from the point. -/
def CallPt (dx dy : ℝ) (x y : F64) (r : Pnt ℝ) : Prop := NumWithin dx x r.1 ∧ NumWithin dy y r.2

/-- A pen movement of the same kind as the operation, with every coordinate less than `dx`, `dy` from the image under `f`. -/
inductive CallWithin (dx dy : ℝ) (f : Pnt ℝ → Pnt ℝ) : Event F64 → GOp ℝ → Prop
  | moveTo {x y r} : CallPt dx dy x y (f r) → CallWithin dx dy f (.move x y) (.moveTo r)
  | lineTo {x y r} : CallPt dx dy x y (f r) → CallWithin dx dy f (.line x y) (.lineTo r)
  | quadTo {x y x' y' r r'} : CallPt dx dy x y (f r) → CallPt dx dy x' y' (f r') → CallWithin dx dy f (.quad x y x' y') (.quadTo r r')
  | cubicTo {x y x' y' x'' y'' r r' r''} : CallPt dx dy x y (f r) → CallPt dx dy x' y' (f r') → CallPt dx dy x'' y'' (f r'') →
      CallWithin dx dy f (.cubic x y x' y' x'' y'') (.cubicTo r r' r'')
  | close : CallWithin dx dy f .close .close

/-- In draw2d and gg a move comes with a call that closes what was drawn before. -/
def closingFirst {F : Type} : Event F → List (Event F)
  | .move x y => [.close, .move x y]
  | e => [e]

/-- The calls `all` of a renderer for the drawing `s` contain `mine` for its path number `i`: what comes before paints the paths before
it, what comes after paints those after it. -/
def PartOf {F : Type} (s : Svg F) (i : Nat) (all mine : List (Event F)) : Prop :=
  ∃ A B, all = A ++ mine ++ B ∧ A.filter Event.isPaint = (s.svgPaths.take i).flatMap (fun p => paintOf p.style) ∧
    B.filter Event.isPaint = (s.svgPaths.drop (i + 1)).flatMap fun p => paintOf p.style

/-- All three renderers draw path number `i` of the drawing with the pen movements `pen`. -/
structure DrawnWith {F : Type} [GoFloat F] [RxEnv F] (s : Svg F) (opts : List (RenderOption F)) (i : Nat) (pen : List (Event F)) : Prop where
  rasterx : ∃ p, s.svgPaths[i]? = some p ∧ PartOf s i ((Rx.draw s opts).flatMap rxEventsOf)
    ((if p.style.fillerColor.isSome then pen ++ [.fill] else []) ++ (if p.style.linerColor.isSome then pen ++ [.stroke] else []))
  draw2d : ∃ p, s.svgPaths[i]? = some p ∧ PartOf s i ((Draw2d.draw s opts).flatMap d2Events) (pen.flatMap closingFirst ++ paintOf p.style)
  gg : ∃ p, s.svgPaths[i]? = some p ∧ ∀ fuel cs, GG.draw s fuel opts = .ok cs →
    PartOf s i (cs.flatMap ggEvents) (pen.flatMap closingFirst ++ paintOf p.style)

/-- Neither the elements nor their `style` attributes declare a transform. -/
def NoTransform [GoEnv] (ch : List Elem) : Prop := ∀ e ∈ ch, ∀ d ∈ declared e.attrs, d.1 ≠ "transform".toList

end GoSvg.Spec

namespace GoSvg

open Spec F64

section Cascade

variable {F : Type} [GoFloat F] [GoEnv]

theorem cascade_no_transform {V : List Elem → Cursor F → Prop} {ch : List Elem} {st : PathStyle F} (h : Cascade V ch st) (hu : NoTransform ch) :
    st.transform = Matrix2D.identity := by
  induction h with
  | root => rfl
  | @elem e ch top st rest c c' h hs hv hl ih =>
    rw [decls_eq_declared] at hl
    rw [declLoop_keeps_transform _ (hu e List.mem_cons_self) _ _ _ _ hl]
    exact ih fun e he => hu e (List.mem_cons_of_mem _ he)

end Cascade

variable [Libm]

theorem is_px {n : ℤ} (h : |n| < 2 ^ 53) : Is (px n : F64) ((n : ℚ) / 64) := by
  have h64 : Is (num 64 : F64) 64 := is_num (by simpa using rep_nat (n := 64) (by norm_num))
  exact is_div (is_ofInt h) h64 (by norm_num) (by
    have := rep_grid (k := 6) (n := n) (by norm_num) h
    norm_num at this
    exact this)

/-- One coordinate that is drawn. -/
theorem drawn_coord {n : ℤ} {c e r X v s D : ℝ} (h : |(n : ℝ) - 64 * (s * c + e)| < 1 + r) (hr : r ≤ 1) (he : e = -v * s) (hD : |c - X| < D)
    (hb : |s * c + e| < 2 ^ 24) :
    NumWithin (|s| * D + 1 / 64 + r / 64) (px n : F64) ((X - v) * s) := by
  have hn : |n| < 2 ^ 53 := by
    have h1 := abs_sub_abs_le_abs_sub (n : ℝ) (64 * (s * c + e))
    rw [abs_mul, abs_of_pos (by norm_num : (0 : ℝ) < 64)] at h1
    have : |(n : ℝ)| < 2 ^ 53 := by linarith
    exact_mod_cast this
  refine ⟨_, is_px hn, ?_⟩
  push_cast
  have e1 : (n : ℝ) / 64 - (X - v) * s = ((n : ℝ) - 64 * (s * c + e)) / 64 + s * (c - X) := by rw [he]; ring
  rw [e1]
  have h2 := abs_add_le (((n : ℝ) - 64 * (s * c + e)) / 64) (s * (c - X))
  rw [abs_mul, abs_div, abs_of_pos (by norm_num : (0 : ℝ) < 64)] at h2
  have h3 : |s| * |c - X| ≤ |s| * D := mul_le_mul_of_nonneg_left hD.le (abs_nonneg _)
  have h4 : |(n : ℝ) - 64 * (s * c + e)| / 64 < (1 + r) / 64 := by linarith
  linarith

/-- A point that is drawn. -/
theorem drawn_point {mat : Matrix2D F64} {vx vy sx sy D : ℝ} {e j : Nat} (hej : e + j ≤ 22)
    (hm : MatWithin (2 ^ j / 2 ^ 54) (2 ^ (e + j) / 2 ^ 51) mat ⟨sx, 0, 0, sy, (0 - vx) * sx, (0 - vy) * sy⟩)
    (hvx : |vx| ≤ 2 ^ e) (hvy : |vy| ≤ 2 ^ e) (hsx : |sx| ≤ 2 ^ j) (hsy : |sy| ≤ 2 ^ j) (hD : D ≤ 2 ^ e) {p : Pt} {r : Pnt ℝ}
    (hp : PtWithin D p r) (hr : Up2 e r) :
    CallPt (|sx| * D + 1 / 64 + 2 ^ (e + j) / 2 ^ 47) (|sy| * D + 1 / 64 + 2 ^ (e + j) / 2 ^ 47) (px (mat.tFixed p).x) (px (mat.tFixed p).y)
      (onPicture vx vy sx sy r) := by
  have pe : (0 : ℝ) < 2 ^ e := by positivity
  have pj : (0 : ℝ) < 2 ^ j := by positivity
  have ej : (2 : ℝ) ^ (e + j) = 2 ^ e * 2 ^ j := pow_add _ _ _
  have e7 : (2 : ℝ) ^ (e + 7) = 128 * 2 ^ e := by rw [pow_add]; ring
  have e8 : (2 : ℝ) ^ (e + j + 8) = 256 * 2 ^ (e + j) := by rw [pow_add]; ring
  have pej : (0 : ℝ) < 2 ^ (e + j) := by positivity
  have hej' : (2 : ℝ) ^ (e + j) ≤ 2 ^ 22 := pow_le_pow_right₀ (by norm_num) hej
  have he22 : (2 : ℝ) ^ e ≤ 2 ^ 22 := pow_le_pow_right₀ (by norm_num) (by omega)
  have coord : ∀ {z : ℤ} {X : ℝ}, |(z / 64 : ℝ) - X| < D → |X| ≤ 2 ^ e → |(z / 64 : ℝ)| ≤ 2 * 2 ^ e := by
    intro z X h1 h2
    have := abs_sub_abs_le_abs_sub (z / 64 : ℝ) X
    linarith
  have cx := coord hp.1 hr.1
  have cy := coord hp.2 hr.2
  have big : ∀ {z : ℤ}, |(z / 64 : ℝ)| ≤ 2 * 2 ^ e → |(z : ℝ)| ≤ 2 ^ (e + 7) := by
    intro z h
    rw [abs_div, abs_of_pos (by norm_num : (0 : ℝ) < 64)] at h
    rw [e7]
    linarith
  have img : ∀ {c s v : ℝ}, |c| ≤ 2 * 2 ^ e → |s| ≤ 2 ^ j → |v| ≤ 2 ^ e → |s * c + (0 - v) * s| ≤ 3 * 2 ^ (e + j) := by
    intro c s v h1 h2 h3
    have h4 := abs_add_le (s * c) ((0 - v) * s)
    rw [abs_mul, abs_mul, zero_sub, abs_neg] at h4
    have h5 : |s| * |c| ≤ 2 ^ j * (2 * 2 ^ e) := mul_le_mul h2 h1 (abs_nonneg _) pj.le
    have h6 : |v| * |s| ≤ 2 ^ e * 2 ^ j := mul_le_mul h3 h2 (abs_nonneg _) pe.le
    rw [zero_sub]
    rw [ej]
    nlinarith
  have ix := img cx hsx hvx
  have iy := img cy hsy hvy
  have off : ∀ {s v : ℝ}, |s| ≤ 2 ^ j → |v| ≤ 2 ^ e → |(0 - v) * s| ≤ 2 ^ (e + j) := by
    intro s v h1 h2
    rw [abs_mul, zero_sub, abs_neg, ej]
    exact mul_le_mul h2 h1 (abs_nonneg _) pe.le
  have herr : (2 * 2 ^ (e + 7) * (2 ^ j / 2 ^ 54) + 64 * (2 ^ (e + j) / 2 ^ 51)) + 2 ^ (e + j + 8) / 2 ^ 50 ≤ (2 : ℝ) ^ (e + j) / 2 ^ 41 := by
    rw [e8, e7]
    have : (2 : ℝ) * (128 * 2 ^ e) * (2 ^ j / 2 ^ 54) = 256 / 2 ^ 54 * 2 ^ (e + j) := by rw [ej]; ring
    rw [this]
    have h1 : (64 : ℝ) * (2 ^ (e + j) / 2 ^ 51) = 64 / 2 ^ 51 * 2 ^ (e + j) := by ring
    have h2 : (256 : ℝ) * 2 ^ (e + j) / 2 ^ 50 = 256 / 2 ^ 50 * 2 ^ (e + j) := by ring
    have h3 : (2 : ℝ) ^ (e + j) / 2 ^ 41 = 1 / 2 ^ 41 * 2 ^ (e + j) := by ring
    rw [h1, h2, h3, ← add_mul, ← add_mul]
    exact mul_le_mul_of_nonneg_right (by norm_num) pej.le
  have herr1 : (2 : ℝ) ^ (e + j) / 2 ^ 41 ≤ 1 := by
    rw [div_le_one (by positivity)]
    exact hej'.trans (by norm_num)
  have hlin : ∀ {s : ℝ}, |s| ≤ 2 ^ j → 2 ^ (e + 7) * (|s| + 2 ^ j / 2 ^ 54) ≤ 2 ^ (e + j + 8) := by
    intro s h1
    rw [e8, e7, ej]
    have h2 : (2 : ℝ) ^ j / 2 ^ 54 ≤ 2 ^ j := div_le_self pj.le (by norm_num)
    have h3 : |s| + 2 ^ j / 2 ^ 54 ≤ 2 * 2 ^ j := by linarith
    have : 128 * 2 ^ e * (|s| + 2 ^ j / 2 ^ 54) ≤ 128 * 2 ^ e * (2 * 2 ^ j) := mul_le_mul_of_nonneg_left h3 (by positivity)
    linarith
  have htr : ∀ {g : ℝ}, |g| ≤ 2 ^ (e + j) → 64 * (|g| + 2 ^ (e + j) / 2 ^ 51) ≤ 2 ^ (e + j + 8) := by
    intro g h1
    rw [e8]
    have h2 : (2 : ℝ) ^ (e + j) / 2 ^ 51 ≤ 2 ^ (e + j) := div_le_self pej.le (by norm_num)
    linarith
  have aff : affine ⟨sx, 0, 0, sy, (0 - vx) * sx, (0 - vy) * sy⟩ (fixed p) =
      (sx * (p.x / 64) + (0 - vx) * sx, sy * (p.y / 64) + (0 - vy) * sy) := by
    simp [affine, fixed]
  have key := C23_float64 mat _ _ _ hm p (2 ^ (e + 7)) (big cx) (big cy)
    (pow_le_pow_right₀ (by norm_num) (by omega)) (e + j + 8) (by omega)
    (by
      simp only [List.mem_cons, List.not_mem_nil, or_false, forall_eq_or_imp, forall_eq]
      exact ⟨hlin hsx, hlin (by simp), hlin (by simp), hlin hsy⟩)
    (by
      simp only [List.mem_cons, List.not_mem_nil, or_false, forall_eq_or_imp, forall_eq]
      exact ⟨htr (off hsx hvx), htr (off hsy hvy)⟩)
    (by rw [aff, abs_mul, abs_of_pos (by norm_num : (0 : ℝ) < 64)]; dsimp only; linarith)
    (by rw [aff, abs_mul, abs_of_pos (by norm_num : (0 : ℝ) < 64)]; dsimp only; linarith)
  rw [aff] at key
  have fin : ∀ {n : ℤ} {c v s X : ℝ}, |(n : ℝ) - 64 * (s * c + (0 - v) * s)| < 1 + ((2 * 2 ^ (e + 7) * (2 ^ j / 2 ^ 54) + 64 * (2 ^ (e + j) / 2 ^ 51)) +
      2 ^ (e + j + 8) / 2 ^ 50) → |s * c + (0 - v) * s| ≤ 3 * 2 ^ (e + j) → |c - X| < D →
      NumWithin (|s| * D + 1 / 64 + 2 ^ (e + j) / 2 ^ 47) (px n : F64) ((X - v) * s) := by
    intro n c v s X h1 h2 h3
    have h4 : |(n : ℝ) - 64 * (s * c + (0 - v) * s)| < 1 + 2 ^ (e + j) / 2 ^ 41 := by linarith
    have := drawn_coord h4 herr1 (v := v) (by ring) h3 (by linarith)
    rwa [div_div, show (2 : ℝ) ^ 41 * 64 = 2 ^ 47 by norm_num] at this
  exact ⟨fin key.1 ix hp.1, fin key.2 iy hp.2⟩

/-- A path that is drawn. -/
theorem drawn_path {mat : Matrix2D F64} {vx vy sx sy D : ℝ} {e j : Nat} (hej : e + j ≤ 22)
    (hm : MatWithin (2 ^ j / 2 ^ 54) (2 ^ (e + j) / 2 ^ 51) mat ⟨sx, 0, 0, sy, (0 - vx) * sx, (0 - vy) * sy⟩)
    (hvx : |vx| ≤ 2 ^ e) (hvy : |vy| ≤ 2 ^ e) (hsx : |sx| ≤ 2 ^ j) (hsy : |sy| ≤ 2 ^ j) (hD : D ≤ 2 ^ e) {ops : Path} {G : List (GOp ℝ)}
    (ho : List.Forall₂ (OpWithin D) ops G) (hu : ∀ o ∈ G, UpOp e o) :
    List.Forall₂ (CallWithin (|sx| * D + 1 / 64 + 2 ^ (e + j) / 2 ^ 47) (|sy| * D + 1 / 64 + 2 ^ (e + j) / 2 ^ 47) (onPicture vx vy sx sy))
      (ops.map (penOf mat.tFixed)) G := by
  have pt : ∀ {p : Pt} {r : Pnt ℝ}, PtWithin D p r → Up2 e r → _ := fun {p r} hp hr => drawn_point hej hm hvx hvy hsx hsy hD (p := p) (r := r) hp hr
  induction ho with
  | nil => exact .nil
  | cons h _ ih =>
    rw [List.map_cons]
    refine .cons ?_ (ih fun o ho => hu o (List.mem_cons_of_mem _ ho))
    have := hu _ List.mem_cons_self
    cases h with
    | moveTo h => exact .moveTo (pt h this)
    | lineTo h => exact .lineTo (pt h this)
    | quadTo h h' => exact .quadTo (pt h this.1) (pt h' this.2)
    | cubicTo h h' h'' => exact .cubicTo (pt h this.1) (pt h' this.2.1) (pt h'' this.2.2)
    | close => exact .close

section Renderers

variable {F : Type} [GoFloat F] [GoEnv]

omit [Libm] [GoEnv] in
theorem within_of {s : Svg F} {i : Nat} {p : SvgPath F} (hp : s.svgPaths[i]? = some p) (f : SvgPath F → List (Event F))
    (hf : ∀ p, (f p).filter Event.isPaint = paintOf p.style) : PartOf s i (s.svgPaths.flatMap f) (f p) := by
  obtain ⟨hi, rfl⟩ := List.getElem?_eq_some_iff.1 hp
  refine ⟨(s.svgPaths.take i).flatMap f, (s.svgPaths.drop (i + 1)).flatMap f, ?_, ?_, ?_⟩
  · conv_lhs => rw [← List.take_append_drop i s.svgPaths, List.drop_eq_getElem_cons hi]
    rw [List.flatMap_append, List.flatMap_cons, List.append_assoc]
  · rw [List.filter_flatMap]; simp only [hf]
  · rw [List.filter_flatMap]; simp only [hf]

omit [Libm] [GoEnv] in
theorem closingFirst_pens (m : Matrix2D F) (path : Path) : (path.map (penOf m.tFixed)).flatMap closingFirst = path.flatMap (withClose m) := by
  induction path with
  | nil => rfl
  | cons op path ih => rw [List.map_cons, List.flatMap_cons, List.flatMap_cons, ih]; cases op <;> rfl

omit [Libm] in
theorem drawnWith_of [RxEnv F] {s : Svg F} {i : Nat} {p : SvgPath F} (hp : s.svgPaths[i]? = some p) (opts : List (RenderOption F)) :
    DrawnWith s opts i (p.path.map (penOf (p.style.transform.mult (options s.viewBox opts).target).tFixed)) := by
  refine ⟨⟨p, hp, ?_⟩, ⟨p, hp, ?_⟩, ⟨p, hp, fun fuel cs h => ?_⟩⟩
  · rw [C51_rasterx]
    refine within_of hp _ fun p => ?_
    unfold paintOf
    rw [List.filter_append]
    congr 1
    · split
      · rw [List.filter_append, filter_map_pens]; rfl
      · rfl
    · split
      · rw [List.filter_append, filter_map_pens]; rfl
      · rfl
  · rw [C51_draw2d_partial, closingFirst_pens]
    exact within_of hp (fun p => p.path.flatMap (withClose (p.style.transform.mult (options s.viewBox opts).target)) ++ paintOf p.style)
      fun p => by rw [List.filter_append, filter_pens, filter_paints]; rfl
  · rw [C51_gg_partial h, closingFirst_pens]
    exact within_of hp (fun p => p.path.flatMap (withClose (p.style.transform.mult (options s.viewBox opts).target)) ++ paintOf p.style)
      fun p => by rw [List.filter_append, filter_pens, filter_paints]; rfl

end Renderers

variable {fuel : Nat} {m : ErrorMode} {root : Elem} {ch : List Elem} {attrs : List Attr} {lead body post : List Token} {s : Svg F64}

/-- An element that contributes a path close to `G` is drawn close to the image of `G`. -/
theorem drawn_element [GoEnv] [RxEnv F64] {name : Str} (h : Parsed fuel m root ch name attrs lead body post s)
    (hb : Balanced (lead ++ .start root.name root.attrs :: body ++ [.start name attrs])) (hu : NoTransform (⟨name, attrs⟩ :: ch))
    {D : ℝ} {G : List (GOp ℝ)}
    (hc : Contributes fuel m (lead ++ .start root.name root.attrs :: body) (.start name attrs) s fun ops => List.Forall₂ (OpWithin D) ops G)
    {e j : Nat} (hej : e + j ≤ 22) (hD : D ≤ 2 ^ e) (hG : ∀ o ∈ G, UpOp e o) {vx vy vw vh w' h' : ℚ} (hbox : BoxIs s.viewBox vx vy vw vh)
    (hw0 : vw ≠ 0) (hh0 : vh ≠ 0) {w ht : F64} (hw : Is w w') (hht : Is ht h') (hvx : |(vx : ℝ)| ≤ 2 ^ e) (hvy : |(vy : ℝ)| ≤ 2 ^ e)
    (hsx : |(w' : ℝ) / vw| ≤ 2 ^ j) (hsy : |(h' : ℝ) / vh| ≤ 2 ^ j) :
    ∃ i pen, (∀ k, DrawnBy (F := F64) fuel m (lead ++ .start root.name root.attrs :: body) (.start name attrs) k ↔ k = i) ∧
      DrawnWith s [.target (num 0) (num 0) w ht] i pen ∧
      List.Forall₂ (CallWithin (|(w' : ℝ) / vw| * D + 1 / 64 + 2 ^ (e + j) / 2 ^ 47) (|(h' : ℝ) / vh| * D + 1 / 64 + 2 ^ (e + j) / 2 ^ 47)
        (onPicture vx vy (w' / vw) (h' / vh))) pen G := by
  obtain ⟨i, p, h1, h2, h3⟩ := hc
  obtain ⟨l, hl⟩ := h.result
  have hl' : parse (F := F64) fuel m ((lead ++ .start root.name root.attrs :: body) ++ .start name attrs :: post) .eof = .done (some s) none l := by
    rw [List.append_assoc]; exact hl
  have hcas := drawnBy_cascade (V := fun _ _ => True) (W := fun _ _ _ => True) (fun _ _ _ _ => trivial)
    (fun _ _ _ _ _ _ _ _ _ _ _ => trivial) trivial hb h.place.around hl' ((h1 i).2 rfl) h2
  have htr := cascade_no_transform hcas hu
  refine ⟨i, _, h1, drawnWith_of h2 _, ?_⟩
  rw [htr]
  have hz : Is (num 0 : F64) ((0 : ℚ)) := is_num rep_zero
  have hm := C49_float64_partial s.viewBox hbox hw0 hh0 _ _ _ _ hz hz hw hht e j (by omega) (by simpa using hvx) (by simpa using hvy) hsx hsy
  have eq : (options ⟨(vx : ℝ), vy, vw, vh⟩ [.target ((0 : ℚ) : ℝ) ((0 : ℚ) : ℝ) w' h']).target =
      ⟨(w' : ℝ) / vw, 0, 0, (h' : ℝ) / vh, (0 - vx) * (w' / vw), (0 - vy) * (h' / vh)⟩ := by
    simp only [options, List.foldl_cons, List.foldl_nil, RenderOption.apply, Matrix2D.identity, Matrix2D.translate,
      Matrix2D.scale, real_add, real_mul, real_sub, real_div, real_num]
    norm_num
  rw [eq] at hm
  exact drawn_path hej (C20_float64_neutral _ _ _ _ hm) hvx hvy hsx hsy hD h3 hG

/-- C75 for paths: the `d` of a `path` element anywhere in a document without transforms around it, drawn with `Target(0, 0, w, h)` by any of the
renderers: the calls for this element are those that are written, and every coordinate is at the place in the picture where it belongs, up
to a sixty-fourth of a unit, a sixty-fourth of a pixel and the rounding errors. -/
theorem C75_path [GoEnv] [RxEnv F64] (h : Parsed fuel m root ch "path".toList attrs lead body post s)
    (hb : Balanced (lead ++ .start root.name root.attrs :: body ++ [.start "path".toList attrs]))
    (hu : NoTransform (⟨"path".toList, attrs⟩ :: ch)) (pre : Str)
    (hpre : ∀ ch ∈ pre, GoEnv.isLetter ch = false) (cmds : List (Cmd ℝ)) (ts : List Str) (hw : List.Forall₂ WrittenExactly cmds ts)
    (hm : StartsWithMoves false cmds) (e : Nat) (ha : ∀ cmd ∈ cmds, ∀ r ∈ cmd.args, |r| ≤ 2 ^ e) (hG : ∀ o ∈ draw cmds, UpOp e o)
    (hne : draw cmds ≠ []) (N : Nat) (hl : (draw cmds).length ≤ N) (hN : N * (N + 1) ≤ 2 ^ 51) (hv : Given attrs "d" (pre ++ ts.flatten))
    {vx vy vw vh w' h' : ℚ} (hbox : BoxIs s.viewBox vx vy vw vh) (hw0 : vw ≠ 0) (hh0 : vh ≠ 0) {w ht : F64} (hwd : Is w w') (hht : Is ht h')
    (hvx : |(vx : ℝ)| ≤ 2 ^ e) (hvy : |(vy : ℝ)| ≤ 2 ^ e) (j : Nat) (hej : e + j ≤ 22) (hsx : |(w' : ℝ) / vw| ≤ 2 ^ j)
    (hsy : |(h' : ℝ) / vh| ≤ 2 ^ j) :
    ∃ i pen, (∀ k, DrawnBy (F := F64) fuel m (lead ++ .start root.name root.attrs :: body) (.start "path".toList attrs) k ↔ k = i) ∧
      DrawnWith s [.target (num 0) (num 0) w ht] i pen ∧
      List.Forall₂ (CallWithin (|(w' : ℝ) / vw| * (1 / 64 + N * (N + 1) * 2 ^ e / 2 ^ 52) + 1 / 64 + 2 ^ (e + j) / 2 ^ 47)
        (|(h' : ℝ) / vh| * (1 / 64 + N * (N + 1) * 2 ^ e / 2 ^ 52) + 1 / 64 + 2 ^ (e + j) / 2 ^ 47)
        (onPicture vx vy (w' / vw) (h' / vh))) pen (draw cmds) := by
  obtain ⟨l, hl'⟩ := h.result
  have hz : Is (num 0 : F64) 0 := F64.is_num F64.rep_zero
  refine drawn_element h hb hu (stands_contributes h.place hl' fun c st hr hx hy _ => ?_) hej ?_ hG hbox hw0 hh0 hwd hht hvx hvy hsx hsy
  · obtain ⟨pc, h1, h2, -⟩ := C74_path_error e (by omega) pre hpre cmds ts hw hm ha hG N hl (by omega) c.pc (hx ▸ hz) (hy ▸ hz)
    have := path_adds (fuel := fuel) h.distinct hr hv h1
    have hnil : pc.path ≠ [] := by
      intro h0
      rw [h0] at h2
      exact hne (List.forall₂_nil_left_iff.1 h2)
    rw [if_neg (by simpa using hnil)] at this
    exact ⟨_, h2, this⟩
  · have hN' : (N : ℝ) * (N + 1) ≤ 2 ^ 51 := by exact_mod_cast hN
    have h1 : (1 : ℝ) ≤ 2 ^ e := one_le_pow₀ (by norm_num)
    have h2 : (N : ℝ) * (N + 1) * 2 ^ e / 2 ^ 52 ≤ 2 ^ 51 * 2 ^ e / 2 ^ 52 :=
      div_le_div_of_nonneg_right (mul_le_mul_of_nonneg_right hN' (by positivity)) (by positivity)
    have h3 : (2 : ℝ) ^ 51 * 2 ^ e / 2 ^ 52 = 2 ^ e / 2 := by ring
    linarith

end GoSvg
