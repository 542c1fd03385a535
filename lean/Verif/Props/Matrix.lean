import Verif.Lemmas.Trunc
import Verif.Spec.Affine

/-! Properties C18, C19, C20, C23 (matrix.go), in exact arithmetic. -/

namespace GoSvg

open Spec (affine)

/-- `Transform` is the map the matrix stands for. -/
theorem transform_is_affine (m : Matrix2D ℝ) (x y : ℝ) : m.transform x y = affine m (x, y) := by
  simp [Matrix2D.transform, affine]; constructor <;> ring

/-- `TransformVector` is the linear part of that map: the difference of the images of two points. -/
theorem transformVector_is_linear_part (m : Matrix2D ℝ) (p q : Spec.P2) :
    m.transformVector (p.1 - q.1) (p.2 - q.2)
      = ((affine m p).1 - (affine m q).1, (affine m p).2 - (affine m q).2) := by
  simp [Matrix2D.transformVector, affine]; constructor <;> ring

/-- C18, exact characterisation: the product composes the maps precisely when the extra factors in the last column do
not matter. The full claim (for all `a`, `b`) is false, see `C18_mult_is_composition_false`. -/
theorem C18_mult_is_composition_partial (a b : Matrix2D ℝ) :
    (∀ p, affine (a.mult b) p = affine a (affine b p)) ↔ a.e * (b.a - 1) = 0 ∧ a.f * (b.d - 1) = 0 := by
  constructor
  · intro h
    have := h (0, 0)
    simp [Matrix2D.mult, affine] at this
    constructor <;> linarith [this.1, this.2]
  · rintro ⟨h1, h2⟩ p
    simp only [Matrix2D.mult, affine, real_add, real_mul, Prod.mk.injEq]
    constructor
    · linear_combination h1
    · linear_combination h2

/-- The characterisation covers, for instance, a pure translation applied first, or a left factor without
translation. -/
example (a : Matrix2D ℝ) (x y : ℝ) (p : Spec.P2) :
    affine (a.mult ⟨1, 0, 0, 1, x, y⟩) p = affine a (affine ⟨1, 0, 0, 1, x, y⟩ p) :=
  (C18_mult_is_composition_partial a _).2 (by simp) p

/-- C18 is false: the translation of the left factor is scaled by the right factor. -/
theorem C18_mult_is_composition_false :
    ¬ ∀ (a b : Matrix2D ℝ) (p : Spec.P2), affine (a.mult b) p = affine a (affine b p) := by
  intro h
  have := (C18_mult_is_composition_partial ⟨1, 0, 0, 1, 1, 0⟩ ⟨2, 0, 0, 1, 0, 0⟩).1 (h _ _)
  norm_num at this

/-- The product is not associative either, so grouping matters. -/
theorem C18_mult_assoc_false :
    ¬ ∀ a b c : Matrix2D ℝ, (a.mult b).mult c = a.mult (b.mult c) := by
  intro h
  have := congrArg Matrix2D.e (h ⟨1, 0, 0, 1, 1, 0⟩ ⟨1, 0, 1, 1, 0, 0⟩ ⟨1, 1, 0, 1, 0, 0⟩)
  norm_num [Matrix2D.mult] at this

/-- The determinant of the linear part. -/
def det2 (m : Matrix2D ℝ) : ℝ := m.a * m.d - m.b * m.c

theorem invert_eq (m : Matrix2D ℝ) : m.invert =
    ⟨m.d / det2 m, -m.b / det2 m, -m.c / det2 m, m.a / det2 m,
      (m.c * m.f - m.e * m.d) / det2 m, (m.b * m.e - m.a * m.f) / det2 m⟩ := by
  have e : m.a * m.d + -(m.c * m.b) = m.a * m.d - m.b * m.c := by ring
  apply Matrix2D.ext' <;>
    simp [Matrix2D.invert, Matrix3.invert, Matrix3.coFact, otherPair, idx3, checkerSign, det2, e] <;>
    congr 1 <;> ring

/-- C19: the inverse matrix undoes the map, on both sides. -/
theorem C19_invert_left (m : Matrix2D ℝ) (h : det2 m ≠ 0) (p : Spec.P2) : affine m.invert (affine m p) = p := by
  rw [invert_eq]
  simp only [affine]
  apply Prod.ext <;> field_simp <;> simp only [det2] <;> ring

theorem C19_invert_right (m : Matrix2D ℝ) (h : det2 m ≠ 0) (p : Spec.P2) : affine m (affine m.invert p) = p := by
  rw [invert_eq]
  simp only [affine]
  apply Prod.ext <;> field_simp <;> simp only [det2] <;> ring

/-- The hypothesis is met and the statement has content: a matrix that scales, skews and translates. -/
example : det2 ⟨2, 1, 3, 4, 5, 6⟩ ≠ 0 ∧ affine ⟨2, 1, 3, 4, 5, 6⟩ (1, 1) = (10, 11) := by
  norm_num [det2, affine]

/-- Without the hypothesis there is no inverse at all, so none can be computed. -/
theorem C19_singular_not_invertible (m : Matrix2D ℝ) (h : det2 m = 0) :
    ¬ ∃ g : Spec.P2 → Spec.P2, ∀ p, g (affine m p) = p := by
  rintro ⟨g, hg⟩
  simp only [det2] at h
  -- two points with the same image
  by_cases h0 : m.a = 0 ∧ m.b = 0
  · have h1 := hg (0, 0)
    have h2 := hg (1, 0)
    simp [affine, h0.1, h0.2] at h1 h2
    rw [h1] at h2; simp at h2
  · have e : affine m (-m.c, m.a) = affine m (0, 0) ∧ affine m (-m.d, m.b) = affine m (0, 0) := by
      constructor <;> simp [affine] <;> constructor <;> linarith
    have h1 := hg (-m.c, m.a)
    have h2 := hg (-m.d, m.b)
    have h3 := hg (0, 0)
    rw [e.1, h3] at h1
    rw [e.2, h3] at h2
    simp at h1 h2
    exact h0 ⟨h1.2.symm, h2.2.symm⟩

/-- C20: Identity is neutral for the product, the map, and the convenience methods. -/
theorem C20_identity_mult (m : Matrix2D ℝ) : Matrix2D.identity.mult m = m ∧ m.mult Matrix2D.identity = m := by
  constructor <;> apply Matrix2D.ext' <;> simp [Matrix2D.mult, Matrix2D.identity]

theorem C20_identity_map (p : Spec.P2) : affine Matrix2D.identity p = p := by
  simp [affine, Matrix2D.identity]

theorem C20_neutral_steps (m : Matrix2D ℝ) :
    m.translate 0 0 = m ∧ m.scale 1 1 = m ∧ m.rotate 0 = m ∧ m.skewX 0 = m ∧ m.skewY 0 = m := by
  refine ⟨?_, ?_, ?_, ?_, ?_⟩ <;> apply Matrix2D.ext' <;>
    simp [Matrix2D.mult, Matrix2D.translate, Matrix2D.scale, Matrix2D.rotate, Matrix2D.skewX, Matrix2D.skewY]

/-- C20 in fixed point: Identity keeps every 26.6 point. -/
theorem C20_identity_fixed (p : Pt) (hx : -2 ^ 31 ≤ p.x ∧ p.x < 2 ^ 31) (hy : -2 ^ 31 ≤ p.y ∧ p.y < 2 ^ 31) :
    (Matrix2D.identity : Matrix2D ℝ).tFixed p = p := by
  cases p with
  | mk x y =>
    simp only [Matrix2D.tFixed, Matrix2D.identity, real_add, real_mul, real_num, real_ofInt, Rat.cast_one, Rat.cast_zero,
      mul_one, mul_zero, zero_mul, add_zero, zero_add]
    rw [toI32_int _ hx.1 hx.2, toI32_int _ hy.1 hy.2]

example : (-2 ^ 31 : ℤ) ≤ 12345 ∧ (12345 : ℤ) < 2 ^ 31 := by norm_num

/-- C23: the fixed-point transform of a point is the real transform of the point it stands for, truncated toward zero
to 1/64 in each coordinate (when the image is in the 26.6 range). -/
theorem C23_tFixed_truncates (m : Matrix2D ℝ) (p : Pt)
    (hx : Spec.InFixRange (affine m (Spec.fixed p)).1) (hy : Spec.InFixRange (affine m (Spec.fixed p)).2) :
    Spec.IsTrunc ((affine m (Spec.fixed p)).1 * 64) (m.tFixed p).x ∧
    Spec.IsTrunc ((affine m (Spec.fixed p)).2 * 64) (m.tFixed p).y := by
  have ex : (affine m (Spec.fixed p)).1 * 64 = (p.x : ℝ) * m.a + p.y * m.c + m.e * 64 := by
    simp [affine, Spec.fixed]; ring
  have ey : (affine m (Spec.fixed p)).2 * 64 = (p.x : ℝ) * m.b + p.y * m.d + m.f * 64 := by
    simp [affine, Spec.fixed]; ring
  unfold Spec.InFixRange at hx hy
  rw [ex] at hx ⊢
  rw [ey] at hy ⊢
  simp only [Matrix2D.tFixed, real_add, real_mul, real_num, real_ofInt]
  have c : ((64 : ℚ) : ℝ) = 64 := by norm_num
  rw [c]
  exact ⟨toI32_isTrunc _ hx.1 hx.2, toI32_isTrunc _ hy.1 hy.2⟩

/-- C23 for the operations: every point of an operation is transformed, each by itself and in its place. -/
theorem C23_all_operations (m : Matrix2D ℝ) (p q r : Pt) :
    m.moveTo p = m.tFixed p ∧ m.lineTo p = m.tFixed p ∧ m.quadTo p q = (m.tFixed p, m.tFixed q) ∧
    m.cubicTo p q r = (m.tFixed p, m.tFixed q, m.tFixed r) := ⟨rfl, rfl, rfl, rfl⟩

/-- The range hypothesis of `C23_tFixed_truncates` is met by an ordinary point and matrix, and truncation does happen:
(65/64, 1/64) scaled by 3/2 in x and -3/2 in y. -/
example : Spec.InFixRange (affine ⟨1.5, 0, 0, -1.5, 0, 0⟩ (Spec.fixed ⟨65, 1⟩)).1 ∧
    Spec.InFixRange (affine ⟨1.5, 0, 0, -1.5, 0, 0⟩ (Spec.fixed ⟨65, 1⟩)).2 ∧
    Spec.IsTrunc ((affine ⟨1.5, 0, 0, -1.5, 0, 0⟩ (Spec.fixed ⟨65, 1⟩)).1 * 64) 97 ∧
    Spec.IsTrunc ((affine ⟨1.5, 0, 0, -1.5, 0, 0⟩ (Spec.fixed ⟨65, 1⟩)).2 * 64) (-1) := by
  norm_num [affine, Spec.fixed, Spec.InFixRange, Spec.IsTrunc]

end GoSvg
