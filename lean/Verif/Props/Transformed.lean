import Verif.Props.EndToEnd
import Verif.Props.RootBox

/-! C77: elements under transforms, from the text of a document to the calls of the renderer, in exact arithmetic. -/

namespace GoSvg.Spec

/-- The linear part of a map. -/
def lin (T : P2 → P2) (p : P2) : P2 := ((T p).1 - (T (0, 0)).1, (T p).2 - (T (0, 0)).2)

/-- The map takes horizontal to horizontal and vertical to vertical. -/
def KeepsAxes (T : P2 → P2) : Prop := (lin T (1, 0)).2 = 0 ∧ (lin T (0, 1)).1 = 0

/-- By how much the map may enlarge a difference, in each coordinate. -/
def stretchX (f : P2 → P2) : ℝ := |(lin f (1, 0)).1| + |(lin f (0, 1)).1|

def stretchY (f : P2 → P2) : ℝ := |(lin f (1, 0)).2| + |(lin f (0, 1)).2|

/-- The place of a point of user space when the view box `vb` fills the rectangle at `(x, y)` of size `w`, `h`. -/
noncomputable def fitted (vb : Bounds ℝ) (x y w h : ℝ) (p : P2) : P2 :=
  (x + (p.1 - vb.x) * (w / vb.w), y + (p.2 - vb.y) * (h / vb.h))

/-- When the code puts the image under `T` in its place: the target is at the origin or not scaled; it is scaled alike in both directions or `T`
does not mix the axes; the place of the origin stays where it is under the linear part of `T`. -/
structure InPlace (vb : Bounds ℝ) (x y w h : ℝ) (T : P2 → P2) : Prop where
  box : vb.w ≠ 0 ∧ vb.h ≠ 0
  left : x = 0 ∨ w = vb.w
  top : y = 0 ∨ h = vb.h
  alike : w / vb.w = h / vb.h ∨ KeepsAxes T
  origin : lin T (fitted vb x y w h (0, 0)) = fitted vb x y w h (0, 0)

/-- The elements from the innermost to the root, and the map their transforms say together: those inside first. The lists and the combinations are
those that the code reads right (`C21_transform_list_partial`, `C22_nested_partial`): elements without a transform; one list in elements
without a transform around them; or single functions that may follow what is around them. -/
inductive TransformedBy [GoEnv] : List Elem → (P2 → P2) → Prop
  | root : TransformedBy [] id
  | plain {e ch T} : (∀ d ∈ declared e.attrs, d.1 ≠ "transform".toList) → TransformedBy ch T → TransformedBy (e :: ch) T
  | list {e : Elem} {ch} {l : List (FnText ℝ)} {fs} : TransformedBy ch id → (∀ t ∈ l, t.WF) → MeansList l fs → ReadRight l →
      LastDecl e.attrs "transform" (listText l []) → TransformedBy (e :: ch) (applyList fs)
  | one {e : Elem} {ch T} {t : FnText ℝ} {f : Fn} : TransformedBy ch T → t.WF → Means t.name t.nums f → Basic t →
      LastDecl e.attrs "transform" t.text → (∀ M : Matrix2D ℝ, (∀ p, affine M p = T p) → Composes M f) → TransformedBy (e :: ch) (T ∘ f.apply)

/-- The points of an operation. -/
def GOp.points : GOp ℝ → List (Pnt ℝ)
  | .moveTo p => [p]
  | .lineTo p => [p]
  | .quadTo p q => [p, q]
  | .cubicTo p q r => [p, q, r]
  | .close => []

/-- Both coordinates of a call are less than `dx` and `dy` from the point. -/
def CallAt (dx dy : ℝ) (x y : ℝ) (r : Pnt ℝ) : Prop := |x - r.1| < dx ∧ |y - r.2| < dy

/-- A pen movement of the same kind as the operation, with every coordinate less than `dx`, `dy` from the image under `f`. -/
inductive CallNear (dx dy : ℝ) (f : Pnt ℝ → Pnt ℝ) : Event ℝ → GOp ℝ → Prop
  | moveTo {x y r} : CallAt dx dy x y (f r) → CallNear dx dy f (.move x y) (.moveTo r)
  | lineTo {x y r} : CallAt dx dy x y (f r) → CallNear dx dy f (.line x y) (.lineTo r)
  | quadTo {x y x' y' r r'} : CallAt dx dy x y (f r) → CallAt dx dy x' y' (f r') → CallNear dx dy f (.quad x y x' y') (.quadTo r r')
  | cubicTo {x y x' y' x'' y'' r r' r''} : CallAt dx dy x y (f r) → CallAt dx dy x' y' (f r') → CallAt dx dy x'' y'' (f r'') →
      CallNear dx dy f (.cubic x y x' y' x'' y'') (.cubicTo r r' r'')
  | close : CallNear dx dy f .close .close

/-- A point and its image are in the range of fixed point numbers. -/
structure InRange (f : P2 → P2) (r : P2) : Prop where
  x : InFixRange r.1
  y : InFixRange r.2
  fx : |(f r).1| + stretchX f / 64 < 2 ^ 25
  fy : |(f r).2| + stretchY f / 64 < 2 ^ 25

/-- All renderers draw path number `i` where the operations `G` are under `f`, up to a sixty-fourth of a unit and a sixty-fourth of a pixel. -/
def DrawnUnder [RxEnv ℝ] (s : Svg ℝ) (opts : List (RenderOption ℝ)) (i : Nat) (f : P2 → P2) (G : List (GOp ℝ)) : Prop :=
  ∃ pen, DrawnWith s opts i pen ∧ List.Forall₂ (CallNear (stretchX f / 64 + 1 / 64) (stretchY f / 64 + 1 / 64) f) pen G

end GoSvg.Spec

namespace GoSvg

open Spec

variable [GoEnv]

theorem pushed_style {attrs : List Attr} {F : Type} [GoFloat F] {c c' : Cursor F} {top st : PathStyle F} {rest : List (PathStyle F)}
    (hs : c.styleStack = top :: rest) (hl : declLoop top (decls attrs) c = (.ok st, c')) :
    pushStyle attrs c = (.ok (), { c' with styleStack := st :: c.styleStack }) := by
  rcases pushStyle_frame attrs c with ⟨top', rest', st', c1, h1, h2, -, h4⟩ | ⟨h, -⟩
  · rw [hs] at h1
    cases h1
    rw [hl] at h2
    cases h2
    exact h4
  · exfalso
    rw [pushStyle_decls, hs] at h
    dsimp only at h
    rw [SM.bind_run, hl] at h
    exact h () rfl

/-- The transform of a style is what its elements say. -/
theorem cascade_transformed {V : List Elem → Cursor ℝ → Prop} {ch : List Elem} {st : PathStyle ℝ} (h : Cascade V ch st) {T : P2 → P2}
    (hT : TransformedBy ch T) : ∀ p, affine st.transform p = T p := by
  induction h generalizing T with
  | root => cases hT; exact fun p => C20_identity_map p
  | @elem e ch top st rest c c' h hs hv hl ih =>
    have hp := pushed_style hs hl
    cases hT with
    | plain h1 h2 =>
      rw [← decls_eq_declared] at h1
      rw [declLoop_keeps_transform _ h1 _ _ _ _ hl]
      exact ih h2
    | list h1 h2 h3 h4 h5 =>
      have hid : top.transform = Matrix2D.identity := by
        have i0 := ih h1 (0, 0)
        have i1 := ih h1 (1, 0)
        have i2 := ih h1 (0, 1)
        simp only [affine, id, Prod.mk.injEq, mul_zero, mul_one, zero_add, add_zero] at i0 i1 i2
        apply Matrix2D.ext' <;> simp only [Matrix2D.identity, real_num] <;> norm_num <;>
          linarith [i0.1, i0.2, i1.1, i1.2, i2.1, i2.2]
      obtain ⟨st', e1, e2⟩ := C21_transform_list_partial h2 h3 h4 h5 hs hid hp
      obtain ⟨rfl, -⟩ := List.cons.inj e1
      exact e2
    | one h1 h2 h3 h4 h5 h6 =>
      obtain ⟨st', e1, e2⟩ := C22_nested_partial h2 h3 h4 h5 hs hp
      obtain ⟨rfl, -⟩ := List.cons.inj e1
      intro p
      rw [e2.2 (h6 _ (ih h1)) p, ih h1]
      rfl

omit [GoEnv] in
theorem lin_affine {M : Matrix2D ℝ} {f : P2 → P2} (h : ∀ p, affine M p = f p) (p : P2) : lin f p = (M.a * p.1 + M.c * p.2, M.b * p.1 + M.d * p.2) := by
  simp only [lin, ← h, affine, mul_zero, zero_add, Prod.mk.injEq]
  constructor <;> ring

/-- The matrix of the drawing. -/
theorem inPlace_affine {S : Matrix2D ℝ} {T : P2 → P2} (hT : ∀ p, affine S p = T p) {vb : Bounds ℝ} {x y w h : ℝ} (hf : InPlace vb x y w h T) (p : P2) :
    affine (S.mult (options vb [.target x y w h]).target) p = fitted vb x y w h (T p) := by
  have e : ∀ {a v x w p : ℝ}, v ≠ 0 → (x = 0 ∨ w = v) → (p + (x - a)) * (w / v) = x + (p - a) * (w / v) := by
    intro a v x w p hv h
    rcases h with rfl | rfl
    · ring
    · rw [div_self hv]; ring
  have hpl : ∀ p, targetMap vb x y w h p = fitted vb x y w h p := by
    intro p
    rw [targetMap_eq, fitted, e hf.box.1 hf.left, e hf.box.2 hf.top]
  have ho : fitted vb x y w h (0, 0) = ((x - vb.x) * (w / vb.w), (y - vb.y) * (h / vb.h)) := by
    rw [← hpl, targetMap_eq]; simp
  have horg := hf.origin
  rw [ho, lin_affine hT, Prod.mk.injEq] at horg
  have := (C50_target_partial vb x y w h S).2 ⟨?_, ?_, horg.1, horg.2⟩ p
  · rw [this, hpl, hT]
  · rcases hf.alike with h | h
    · rw [h]; ring
    · have := h.1
      rw [lin_affine hT] at this
      simp only [mul_one, mul_zero, add_zero] at this
      rw [this, zero_mul]
  · rcases hf.alike with h | h
    · rw [h]; ring
    · have := h.2
      rw [lin_affine hT] at this
      simp only [mul_one, mul_zero, zero_add] at this
      rw [this, zero_mul]

omit [GoEnv] in
theorem trunc_near {v : ℝ} {n : ℤ} (h : IsTrunc (v * 64) n) : |(n / 64 : ℝ) - v| < 1 / 64 := by
  rcases le_or_gt 0 v with hv | hv
  · have := h.1 (by linarith)
    rw [abs_lt]; constructor <;> linarith [this.1, this.2]
  · have := h.2 (by linarith)
    rw [abs_lt]; constructor <;> linarith [this.1, this.2]

omit [GoEnv] in
theorem inFixRange_of {v : ℝ} (h : |v| < 2 ^ 25) : InFixRange v := by
  rw [abs_lt] at h
  constructor <;> norm_num at * <;> linarith [h.1, h.2]

/-- A point that is drawn. -/
theorem drawn_under {M : Matrix2D ℝ} {f : P2 → P2} (hM : ∀ p, affine M p = f p) {r : P2} (hr : InRange f r) :
    CallAt (stretchX f / 64 + 1 / 64) (stretchY f / 64 + 1 / 64) (px (M.tFixed (toFixedP r.1 r.2)).x) (px (M.tFixed (toFixedP r.1 r.2)).y) (f r) := by
  have h1 := (C05_quantised r.1 hr.x).2.1
  have h2 := (C05_quantised r.2 hr.y).2.1
  obtain ⟨q, hq⟩ : ∃ q, q = toFixedP r.1 r.2 := ⟨_, rfl⟩
  have hq' : q = ⟨toFix r.1, toFix r.2⟩ := hq
  rw [← hq]
  have sx : stretchX f = |M.a| + |M.c| := by simp [stretchX, lin_affine hM]
  have sy : stretchY f = |M.b| + |M.d| := by simp [stretchY, lin_affine hM]
  have d : ∀ {a c : ℝ}, |a * ((q.x : ℝ) / 64 - r.1) + c * ((q.y : ℝ) / 64 - r.2)| ≤ (|a| + |c|) / 64 := by
    intro a c
    have e1 : |((q.x : ℝ) / 64 - r.1)| ≤ 1 / 64 := by rw [hq', abs_sub_comm]; exact h1.le
    have e2 : |((q.y : ℝ) / 64 - r.2)| ≤ 1 / 64 := by rw [hq', abs_sub_comm]; exact h2.le
    have := abs_add_le (a * ((q.x : ℝ) / 64 - r.1)) (c * ((q.y : ℝ) / 64 - r.2))
    rw [abs_mul, abs_mul] at this
    have h3 := mul_le_mul_of_nonneg_left e1 (abs_nonneg a)
    have h4 := mul_le_mul_of_nonneg_left e2 (abs_nonneg c)
    linarith
  have dx : |(affine M (fixed q)).1 - (f r).1| ≤ stretchX f / 64 := by
    rw [← hM, sx]
    have : (affine M (fixed q)).1 - (affine M r).1 = M.a * ((q.x : ℝ) / 64 - r.1) + M.c * ((q.y : ℝ) / 64 - r.2) := by
      simp only [affine, fixed]; ring
    rw [this]; exact d
  have dy : |(affine M (fixed q)).2 - (f r).2| ≤ stretchY f / 64 := by
    rw [← hM, sy]
    have : (affine M (fixed q)).2 - (affine M r).2 = M.b * ((q.x : ℝ) / 64 - r.1) + M.d * ((q.y : ℝ) / 64 - r.2) := by
      simp only [affine, fixed]; ring
    rw [this]; exact d
  have rx : InFixRange (affine M (fixed q)).1 := by
    apply inFixRange_of
    have := abs_sub_abs_le_abs_sub (affine M (fixed q)).1 (f r).1
    linarith [hr.fx]
  have ry : InFixRange (affine M (fixed q)).2 := by
    apply inFixRange_of
    have := abs_sub_abs_le_abs_sub (affine M (fixed q)).2 (f r).2
    linarith [hr.fy]
  obtain ⟨t1, t2⟩ := C23_tFixed_truncates M q rx ry
  have t1 := trunc_near t1
  have t2 := trunc_near t2
  have fin : ∀ {n : ℤ} {v u s : ℝ}, |(n / 64 : ℝ) - v| < 1 / 64 → |v - u| ≤ s / 64 → |(px n : ℝ) - u| < s / 64 + 1 / 64 := by
    intro n v u s h1 h2
    have e : (px n : ℝ) = n / 64 := by simp [px]
    rw [e]
    have := abs_sub_le (n / 64 : ℝ) v u
    linarith
  exact ⟨fin t1 dx, fin t2 dy⟩

variable {fuel : Nat} {m : ErrorMode} {root : Elem} {ch : List Elem} {attrs : List Attr} {lead body post : List Token} {s : Svg ℝ} [RxEnv ℝ]

/-- A stored path is drawn where its transform and then the target put it. -/
theorem drawnUnder_of {i : Nat} {p : SvgPath ℝ} (h2 : s.svgPaths[i]? = some p) {G : List (GOp ℝ)} (h3 : p.path = G.map (GOp.store toFix 0 0)) {T : P2 → P2}
    (htr : ∀ q, affine p.style.transform q = T q) {x y w ht : ℝ} (hf : InPlace s.viewBox x y w ht T)
    (hG : ∀ o ∈ G, ∀ r ∈ o.points, InRange (fitted s.viewBox x y w ht ∘ T) r) : DrawnUnder s [.target x y w ht] i (fitted s.viewBox x y w ht ∘ T) G := by
  have hM : ∀ q, affine (p.style.transform.mult (options s.viewBox [.target x y w ht]).target) q = (fitted s.viewBox x y w ht ∘ T) q := inPlace_affine htr hf
  refine ⟨_, drawnWith_of h2 _, ?_⟩
  rw [h3, List.map_map]
  have pt : ∀ {r : P2}, InRange (fitted s.viewBox x y w ht ∘ T) r → _ := fun {r} hr => drawn_under hM hr
  have e : ∀ r : P2, (⟨toFix (r.1 +. 0), toFix (r.2 +. 0)⟩ : Pt) = toFixedP r.1 r.2 := fun r => by
    rw [real_add, real_add, add_zero, add_zero]; rfl
  clear h3 h2
  induction G with
  | nil => exact .nil
  | cons o G ih =>
    refine .cons ?_ (ih fun o ho => hG o (List.mem_cons_of_mem _ ho))
    have ho := hG o List.mem_cons_self
    cases o with
    | moveTo p => exact .moveTo (by simpa only [e] using pt (ho p (by simp [GOp.points])))
    | lineTo p => exact .lineTo (by simpa only [e] using pt (ho p (by simp [GOp.points])))
    | quadTo p q => exact .quadTo (by simpa only [e] using pt (ho p (by simp [GOp.points]))) (by simpa only [e] using pt (ho q (by simp [GOp.points])))
    | cubicTo p q r =>
      exact .cubicTo (by simpa only [e] using pt (ho p (by simp [GOp.points]))) (by simpa only [e] using pt (ho q (by simp [GOp.points])))
        (by simpa only [e] using pt (ho r (by simp [GOp.points])))
    | close => exact .close

/-- C77, for whatever an element contributes: it is drawn where its transforms and then the target put it. -/
theorem C77_drawn_partial {name : Str} (h : Parsed fuel m root ch name attrs lead body post s)
    (hb : Balanced (lead ++ .start root.name root.attrs :: body ++ [.start name attrs])) {T : P2 → P2} (hT : TransformedBy (⟨name, attrs⟩ :: ch) T)
    {G : List (GOp ℝ)}
    (hc : Contributes fuel m (lead ++ .start root.name root.attrs :: body) (.start name attrs) s fun ops => ops = G.map (GOp.store toFix 0 0))
    {x y w ht : ℝ} (hf : InPlace s.viewBox x y w ht T) (hG : ∀ o ∈ G, ∀ r ∈ o.points, InRange (fitted s.viewBox x y w ht ∘ T) r) :
    ∃ i, (∀ k, DrawnBy (F := ℝ) fuel m (lead ++ .start root.name root.attrs :: body) (.start name attrs) k ↔ k = i) ∧
      DrawnUnder s [.target x y w ht] i (fitted s.viewBox x y w ht ∘ T) G := by
  obtain ⟨i, p, h1, h2, h3⟩ := hc
  obtain ⟨l, hl⟩ := h.result
  have hl' : parse (F := ℝ) fuel m ((lead ++ .start root.name root.attrs :: body) ++ .start name attrs :: post) .eof = .done (some s) none l := by
    rw [List.append_assoc]; exact hl
  have hcas := drawnBy_cascade (V := fun _ _ => True) (W := fun _ _ _ => True) (fun _ _ _ _ => trivial)
    (fun _ _ _ _ _ _ _ _ _ _ _ => trivial) trivial hb h.place.around hl' ((h1 i).2 rfl) h2
  have htr := cascade_transformed hcas hT
  exact ⟨i, h1, drawnUnder_of h2 h3 htr hf hG⟩

/-- C77, lines. Partial: the transforms and targets for which the code composes in the right order (`TransformedBy`, `InPlace`), here and below. -/
theorem C77_line_partial (h : Parsed fuel m root ch "line".toList attrs lead body post s)
    (hb : Balanced (lead ++ .start root.name root.attrs :: body ++ [.start "line".toList attrs])) {T : P2 → P2}
    (hT : TransformedBy (⟨"line".toList, attrs⟩ :: ch) T) {x1 y1 x2 y2 : ℝ}
    (h1 : Len s.viewBox attrs "x1" .width x1) (h2 : Len s.viewBox attrs "y1" .height y1)
    (h3 : Len s.viewBox attrs "x2" .width x2) (h4 : Len s.viewBox attrs "y2" .height y2)
    {x y w ht : ℝ} (hf : InPlace s.viewBox x y w ht T) (hG : ∀ r ∈ [(x1, y1), (x2, y2)], InRange (fitted s.viewBox x y w ht ∘ T) r) :
    ∃ i, (∀ k, DrawnBy (F := ℝ) fuel m (lead ++ .start root.name root.attrs :: body) (.start "line".toList attrs) k ↔ k = i) ∧
      DrawnUnder s [.target x y w ht] i (fitted s.viewBox x y w ht ∘ T) [.moveTo (x1, y1), .lineTo (x2, y2)] := by
  refine C77_drawn_partial h hb hT ?_ hf ?_
  · have := C73_line h h1 h2 h3 h4
    simpa [GOp.store, toFixedP] using this
  · intro o ho r hr
    simp only [List.mem_cons, List.not_mem_nil, or_false] at ho
    rcases ho with rfl | rfl <;> simp only [GOp.points, List.mem_singleton] at hr <;> subst hr <;> exact hG _ (by simp)

/-- C77, rectangles with square corners. -/
theorem C77_rect_partial (h : Parsed fuel m root ch "rect".toList attrs lead body post s)
    (hb : Balanced (lead ++ .start root.name root.attrs :: body ++ [.start "rect".toList attrs])) {T : P2 → P2}
    (hT : TransformedBy (⟨"rect".toList, attrs⟩ :: ch) T) {rx ry rw rh cx cy : ℝ}
    (hv : IsRect s.viewBox attrs rx ry rw rh cx cy) (hw : rw ≠ 0) (hh : rh ≠ 0) (h0 : cx ≤ 0 ∧ cy ≤ 0)
    {x y w ht : ℝ} (hf : InPlace s.viewBox x y w ht T)
    (hG : ∀ r ∈ [(rx, ry), (rx + rw, ry), (rx + rw, ry + rh), (rx, ry + rh)], InRange (fitted s.viewBox x y w ht ∘ T) r) :
    ∃ i, (∀ k, DrawnBy (F := ℝ) fuel m (lead ++ .start root.name root.attrs :: body) (.start "rect".toList attrs) k ↔ k = i) ∧
      DrawnUnder s [.target x y w ht] i (fitted s.viewBox x y w ht ∘ T)
        [.moveTo (rx, ry), .lineTo (rx + rw, ry), .lineTo (rx + rw, ry + rh), .lineTo (rx, ry + rh), .close] := by
  refine C77_drawn_partial h hb hT ?_ hf ?_
  · have := C73_rect h hv hw hh h0
    simpa [GOp.store, toFixedP] using this
  · intro o ho r hr
    simp only [List.mem_cons, List.not_mem_nil, or_false] at ho
    rcases ho with rfl | rfl | rfl | rfl | rfl
    on_goal 5 => cases hr
    all_goals
      simp only [GOp.points, List.mem_singleton] at hr
      subst hr
      exact hG _ (by simp)

omit [GoEnv] [RxEnv ℝ] in
/-- The control points are not far from the ellipse. -/
theorem control_box {cx cy rx ry η δ : ℝ} {n : Nat} {cs : List Cubic} (hx : rx ≠ 0) (hy : ry ≠ 0) (h : Follows ⟨cx, cy, rx, ry, 0⟩ η δ n cs) {b : Cubic}
    (hb : b ∈ cs) : (|b.p1.1 - cx| ≤ 6 * |rx| ∧ |b.p1.2 - cy| ≤ 6 * |ry|) ∧ (|b.p2.1 - cx| ≤ 6 * |rx| ∧ |b.p2.2 - cy| ≤ 6 * |ry|) ∧
      (|b.p3.1 - cx| ≤ 6 * |rx| ∧ |b.p3.2 - cy| ≤ 6 * |ry|) := by
  have box : ∀ t : ℝ, 0 ≤ t → t ≤ 1 → |(b.at t).1 - cx| ≤ |rx| ∧ |(b.at t).2 - cy| ≤ |ry| := by
    intro t h0 h1
    have := (h.near b hb t h0 h1).2
    simp only [Ellipse.level, Ellipse.along, Real.cos_zero, Real.sin_zero, mul_one, mul_zero, add_zero, neg_mul, neg_zero, zero_add] at this
    constructor
    · have h2 : (((b.at t).1 - cx) / rx) ^ 2 ≤ 1 := by nlinarith [sq_nonneg (((b.at t).2 - cy) / ry)]
      rw [sq_le_one_iff_abs_le_one, abs_div, div_le_one (abs_pos.2 hx)] at h2
      exact h2
    · have h2 : (((b.at t).2 - cy) / ry) ^ 2 ≤ 1 := by nlinarith [sq_nonneg (((b.at t).1 - cx) / rx)]
      rw [sq_le_one_iff_abs_le_one, abs_div, div_le_one (abs_pos.2 hy)] at h2
      exact h2
  have key : ∀ {p0 p1 p2 p3 c R : ℝ}, (∀ t : ℝ, 0 ≤ t → t ≤ 1 → |((1 - t) ^ 3 * p0 + 3 * (1 - t) ^ 2 * t * p1 + 3 * (1 - t) * t ^ 2 * p2 + t ^ 3 * p3) - c| ≤ R) →
      |p1 - c| ≤ 6 * R ∧ |p2 - c| ≤ 6 * R ∧ |p3 - c| ≤ 6 * R := by
    intro p0 p1 p2 p3 c R h
    have a0 := abs_le.1 (h 0 (by norm_num) (by norm_num))
    have a1 := abs_le.1 (h (1 / 3) (by norm_num) (by norm_num))
    have a2 := abs_le.1 (h (2 / 3) (by norm_num) (by norm_num))
    have a3 := abs_le.1 (h 1 (by norm_num) (by norm_num))
    norm_num at a0 a1 a2 a3
    refine ⟨abs_le.2 ⟨?_, ?_⟩, abs_le.2 ⟨?_, ?_⟩, abs_le.2 ⟨?_, ?_⟩⟩ <;> linarith [a0.1, a0.2, a1.1, a1.2, a2.1, a2.2, a3.1, a3.2]
  obtain ⟨x1, x2, x3⟩ := key fun t h0 h1 => (box t h0 h1).1
  obtain ⟨y1, y2, y3⟩ := key fun t h0 h1 => (box t h0 h1).2
  exact ⟨⟨x1, y1⟩, ⟨x2, y2⟩, ⟨x3, y3⟩⟩

/-- C77, circles and ellipses: the curve that is drawn stays within a millionth of the ellipse (`Follows`) before it is transformed. -/
theorem C77_ellipse_partial {name : Str} (hn : name = "circle".toList ∨ name = "ellipse".toList) (h : Parsed fuel m root ch name attrs lead body post s)
    (hb : Balanced (lead ++ .start root.name root.attrs :: body ++ [.start name attrs])) {T : P2 → P2}
    (hT : TransformedBy (⟨name, attrs⟩ :: ch) T) {cx cy rx ry : ℝ} (h1 : Len s.viewBox attrs "cx" .width cx)
    (h2 : Len s.viewBox attrs "cy" .height cy) (h3 : Radii s.viewBox attrs rx ry) (hx : rx ≠ 0) (hy : ry ≠ 0)
    {x y w ht : ℝ} (hf : InPlace s.viewBox x y w ht T)
    (hG : ∀ r : P2, |r.1 - cx| ≤ 6 * |rx| → |r.2 - cy| ≤ 6 * |ry| → InRange (fitted s.viewBox x y w ht ∘ T) r) :
    ∃ i cs, (∀ k, DrawnBy (F := ℝ) fuel m (lead ++ .start root.name root.attrs :: body) (.start name attrs) k ↔ k = i) ∧
      Follows ⟨cx, cy, rx, ry, 0⟩ 0 (-(2 * Real.pi)) 17 cs ∧
      DrawnUnder s [.target x y w ht] i (fitted s.viewBox x y w ht ∘ T)
        ([.moveTo (cx + rx, cy)] ++ cs.map (fun b => .cubicTo b.p1 b.p2 b.p3) ++ [.close]) := by
  obtain ⟨i, p, c1, c2, cs, c3, c4⟩ := C73_ellipse hn h h1 h2 h3 hx hy
  obtain ⟨i', d1, d2⟩ := C77_drawn_partial (G := [.moveTo (cx + rx, cy)] ++ cs.map (fun b => .cubicTo b.p1 b.p2 b.p3) ++ [.close]) h hb hT
    ⟨i, p, c1, c2, by rw [c4]; simp [GOp.store, toFixedP, Function.comp_def]⟩ hf (by
      intro o ho r hr
      rcases List.mem_append.1 ho with ho | ho
      · rcases List.mem_append.1 ho with ho | ho
        · cases List.mem_singleton.1 ho
          cases List.mem_singleton.1 hr
          refine hG _ ?_ ?_
          · rw [add_sub_cancel_left]; linarith [abs_nonneg rx]
          · rw [sub_self, abs_zero]; positivity
        · obtain ⟨b, hb, rfl⟩ := List.mem_map.1 ho
          obtain ⟨q1, q2, q3⟩ := control_box hx hy c3 hb
          simp only [GOp.points, List.mem_cons, List.not_mem_nil, or_false] at hr
          rcases hr with rfl | rfl | rfl
          · exact hG _ q1.1 q1.2
          · exact hG _ q2.1 q2.2
          · exact hG _ q3.1 q3.2
      · cases List.mem_singleton.1 ho
        cases hr)
  exact ⟨i', cs, d1, c3, d2⟩

/-- C77, polylines and polygons of three or more points. -/
theorem C77_poly_partial {closed : Bool} (h : Parsed fuel m root ch (if closed then "polygon" else "polyline").toList attrs lead body post s)
    (hb : Balanced (lead ++ .start root.name root.attrs :: body ++ [.start (if closed then "polygon" else "polyline").toList attrs])) {T : P2 → P2}
    (hT : TransformedBy (⟨(if closed then "polygon" else "polyline").toList, attrs⟩ :: ch) T)
    {p : ℝ × ℝ} {pts : List (ℝ × ℝ)} {v : Str} (hv : Given attrs "points" v) (hw : WritesNumbers (coords (p :: pts)) v) (h2 : 2 ≤ pts.length)
    {x y w ht : ℝ} (hf : InPlace s.viewBox x y w ht T) (hG : ∀ r ∈ p :: pts, InRange (fitted s.viewBox x y w ht ∘ T) r) :
    ∃ i, (∀ k, DrawnBy (F := ℝ) fuel m (lead ++ .start root.name root.attrs :: body)
        (.start (if closed then "polygon" else "polyline").toList attrs) k ↔ k = i) ∧
      DrawnUnder s [.target x y w ht] i (fitted s.viewBox x y w ht ∘ T) (.moveTo p :: pts.map .lineTo ++ (if closed then [.close] else [])) := by
  refine C77_drawn_partial h hb hT ?_ hf ?_
  · have := C73_poly_partial h hv hw h2
    convert this using 3
    cases closed <;> simp [GOp.store, toFixedP, Function.comp_def]
  · intro o ho r hr
    rcases List.mem_append.1 ho with ho | ho
    · rcases List.mem_cons.1 ho with rfl | ho
      · simp only [GOp.points, List.mem_singleton] at hr
        subst hr
        exact hG _ List.mem_cons_self
      · obtain ⟨q, hq, rfl⟩ := List.mem_map.1 ho
        simp only [GOp.points, List.mem_singleton] at hr
        subst hr
        exact hG _ (List.mem_cons_of_mem _ hq)
    · cases closed
      · cases ho
      · rcases List.mem_cons.1 ho with rfl | ho
        · cases hr
        · cases ho

/-- C77, paths without arcs. -/
theorem C77_path_partial (h : Parsed fuel m root ch "path".toList attrs lead body post s)
    (hb : Balanced (lead ++ .start root.name root.attrs :: body ++ [.start "path".toList attrs])) {T : P2 → P2}
    (hT : TransformedBy (⟨"path".toList, attrs⟩ :: ch) T) (pre : Str)
    (hpre : ∀ ch ∈ pre, GoEnv.isLetter ch = false) (cmds : List (Cmd ℝ)) (ts : List Str) (hw : List.Forall₂ WrittenExactly cmds ts)
    (hm : StartsWithMoves false cmds) (hne : draw cmds ≠ []) (hv : Given attrs "d" (pre ++ ts.flatten))
    {x y w ht : ℝ} (hf : InPlace s.viewBox x y w ht T) (hG : ∀ o ∈ draw cmds, ∀ r ∈ o.points, InRange (fitted s.viewBox x y w ht ∘ T) r) :
    ∃ i, (∀ k, DrawnBy (F := ℝ) fuel m (lead ++ .start root.name root.attrs :: body) (.start "path".toList attrs) k ↔ k = i) ∧
      DrawnUnder s [.target x y w ht] i (fitted s.viewBox x y w ht ∘ T) (draw cmds) :=
  C77_drawn_partial h hb hT (C73_path h pre hpre cmds ts hw hm hne hv) hf hG

end GoSvg

namespace GoSvg

open Spec

section Examples

attribute [local instance] asciiEnv
attribute [local instance] dummyLibm

/-- Bounds that are not used. -/
local instance exRxReal : RxEnv ℝ := ⟨fun _ => (⟨0, 0⟩, ⟨0, 0⟩)⟩

theorem ex_scale_small : (fnText "scale" "2" [2]).WF :=
  fnText_wf ⟨[int "" "2"], []⟩ (by decide +kernel) (by decide +kernel)
    (by simp [GroupList.numbers, Group.numbers, int, Spelling.value, Spelling.absValue, natVal])
    (by decide) (by decide) (by decide) (by decide) (by decide)

/-- The group of the example documents. -/
theorem place_transformed : TransformedBy placeCh (applyList [.scale 2 2]) := by
  refine .list (l := [fnText "scale" "2" [2]]) (.plain (by decide +kernel) .root) ?_ (.cons (.scaleBoth (by decide)) .nil) ⟨by simp, ?_⟩
    ⟨[], [("stroke".toList, "blue".toList)], by decide +kernel, by decide⟩
  · intro t ht
    cases List.mem_singleton.1 ht
    exact ex_scale_small
  · intro t ht
    cases ht
    exact .inl (.inr (by decide))

/-- `rotate(180)` in a group with `scale(2)`, in a target twice the size of the view box. -/
theorem ex_turned (p : P2) : (fitted ⟨0, 0, 100, 50⟩ 0 0 200 100 ∘ (applyList [.scale 2 2] ∘ (Fn.rotate 180).apply)) p = (-4 * p.1, -4 * p.2) := by
  have e : rad 180 = Real.pi := by simp [rad]
  simp only [fitted, applyList, Fn.apply, rot, e, Function.comp, List.foldr, Real.cos_pi, Real.sin_pi, Prod.mk.injEq]
  constructor <;> norm_num <;> ring

set_option maxRecDepth 100000 in
/-- C77 is about such a line. -/
example : ∃ s : Svg ℝ, ∃ i, DrawnUnder s [.target 0 0 200 100] i (fun p => (-4 * p.1, -4 * p.2)) [.moveTo (2, 0), .lineTo (0, 1)] := by
  obtain ⟨s, hs⟩ := place_parsed (F := ℝ) "line" (attrsOf [("y2", "1"), ("x1", "2"), ("transform", "rotate(180)")]) (by decide) (by decide +kernel)
    (by decide +kernel)
  have hb := place_box hs
  have hbal : Balanced ([] ++ .start placeRoot.name placeRoot.attrs :: placeBody ++
    [.start "line".toList (attrsOf [("y2", "1"), ("x1", "2"), ("transform", "rotate(180)")])]) := ⟨by decide +kernel, .inr ⟨by decide +kernel, by decide +kernel⟩⟩
  have hT : TransformedBy (⟨"line".toList, attrsOf [("y2", "1"), ("x1", "2"), ("transform", "rotate(180)")]⟩ :: placeCh)
      (applyList [.scale 2 2] ∘ (Fn.rotate 180).apply) := by
    refine .one (t := fnText "rotate" "180" [180]) place_transformed ex_rotate (.rotate (by decide)) (.inr (.inl ⟨by decide, rfl⟩))
      ⟨[("y2".toList, "1".toList), ("x1".toList, "2".toList)], [], by decide +kernel, by simp⟩ fun M hM => ?_
    have := hM (0, 0)
    simp only [affine, applyList, Fn.apply, List.foldr, mul_zero, zero_add, Prod.mk.injEq, add_zero] at this
    simp [Composes, this.1, this.2]
  obtain ⟨A, hA⟩ : ∃ A, A = attrsOf [("y2", "1"), ("x1", "2"), ("transform", "rotate(180)")] := ⟨_, rfl⟩
  rw [← hA] at hs hbal hT
  have hfun : fitted s.viewBox 0 0 200 100 ∘ (applyList [.scale 2 2] ∘ (Fn.rotate 180).apply) = fun p => (-4 * p.1, -4 * p.2) := by
    rw [hb]; exact funext ex_turned
  have hr : ∀ r : P2, |r.1| ≤ 2 → |r.2| ≤ 2 → InRange (fitted s.viewBox 0 0 200 100 ∘ (applyList [.scale 2 2] ∘ (Fn.rotate 180).apply)) r := by
    intro r h1 h2
    rw [hfun]
    have a1 := abs_le.1 h1
    have a2 := abs_le.1 h2
    constructor
    · exact inFixRange_of (by norm_num; linarith)
    · exact inFixRange_of (by norm_num; linarith)
    · simp only [stretchX, lin, abs_mul]; norm_num; linarith
    · simp only [stretchY, lin, abs_mul]; norm_num; linarith
  obtain ⟨i, -, h2⟩ := C77_line_partial hs hbal hT
    (len_dec (n := "x1") (v := "2".toList) (q := 2) (by rw [hA]; decide) (by decide) (by decide +kernel) _ _)
    (len_none (by rw [hA]; decide) _ _) (len_none (by rw [hA]; decide) _ _)
    (len_dec (n := "y2") (v := "1".toList) (q := 1) (by rw [hA]; decide) (by decide) (by decide +kernel) _ _)
    (x := 0) (y := 0) (w := 200) (ht := 100)
    ⟨by rw [hb]; norm_num, .inl rfl, .inl rfl, .inl (by rw [hb]; norm_num), by rw [hb]; simp [fitted, lin, applyList, Fn.apply]⟩
    (by
      intro r h
      simp only [List.mem_cons, List.not_mem_nil, or_false] at h
      rcases h with rfl | rfl <;> refine hr _ ?_ ?_ <;> norm_num)
  rw [hfun] at h2
  refine ⟨s, i, ?_⟩
  simpa using h2

end Examples

end GoSvg
