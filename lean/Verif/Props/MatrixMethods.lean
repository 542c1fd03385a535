import Verif.Props.Matrix

/-! Property C81 (matrix.go): what `Transform`, `TransformVector` and the methods that add a step to a matrix do to points. -/

namespace GoSvg

open Spec (affine P2)

/-- C81: `Transform` is the map that the matrix stands for. -/
theorem C81_transform (m : Matrix2D ℝ) (p : P2) : m.transform p.1 p.2 = affine m p := transform_is_affine m p.1 p.2

/-- C81: `TransformVector` is the linear part of that map, the difference of the images of two points. -/
theorem C81_vector (m : Matrix2D ℝ) (p q : P2) : m.transformVector (p.1 - q.1) (p.2 - q.2) = affine m p - affine m q :=
  transformVector_is_linear_part m p q

/-- C81: the skews come before the matrix. -/
theorem C81_skewX (m : Matrix2D ℝ) (θ : ℝ) (p : P2) : affine (m.skewX θ) p = affine m (p.1 + Real.tan θ * p.2, p.2) := by
  simp only [Matrix2D.skewX, Matrix2D.mult, affine, real_add, real_mul, real_num, real_tan]
  push_cast
  ext <;> simp only <;> ring

theorem C81_skewY (m : Matrix2D ℝ) (θ : ℝ) (p : P2) : affine (m.skewY θ) p = affine m (p.1, p.2 + Real.tan θ * p.1) := by
  simp only [Matrix2D.skewY, Matrix2D.mult, affine, real_add, real_mul, real_num, real_tan]
  push_cast
  ext <;> simp only <;> ring

/-- A rotation by an angle. -/
noncomputable def rotatedBy (θ : ℝ) (p : P2) : P2 := (Real.cos θ * p.1 - Real.sin θ * p.2, Real.sin θ * p.1 + Real.cos θ * p.2)

/-- C81 for rotations. Partial: exactly for the matrices without translation and the full turns, see `C81_rotate_false`. -/
theorem C81_rotate_partial (m : Matrix2D ℝ) (θ : ℝ) :
    (∀ p, affine (m.rotate θ) p = affine m (rotatedBy θ p)) ↔ Real.cos θ = 1 ∨ m.e = 0 ∧ m.f = 0 := by
  have h := C18_mult_is_composition_partial m ⟨Real.cos θ, Real.sin θ, -Real.sin θ, Real.cos θ, 0, 0⟩
  have e1 : m.rotate θ = m.mult ⟨Real.cos θ, Real.sin θ, -Real.sin θ, Real.cos θ, 0, 0⟩ := by
    simp [Matrix2D.rotate, real_num]
  have e2 : ∀ p, affine ⟨Real.cos θ, Real.sin θ, -Real.sin θ, Real.cos θ, 0, 0⟩ p = rotatedBy θ p := fun p => by
    simp only [affine, rotatedBy]; ext <;> simp only <;> ring
  rw [e1]
  simp only [e2] at h
  rw [h, mul_eq_zero, mul_eq_zero, sub_eq_zero]
  tauto

/-- C81 for translations. Partial: the translation comes after the matrix, which is the same only if the linear part leaves it alone. -/
theorem C81_translate_partial (m : Matrix2D ℝ) (x y : ℝ) : (∀ p, affine (m.translate x y) p = affine m p + (x, y)) ∧
    ((∀ p, affine (m.translate x y) p = affine m (p + (x, y))) ↔ m.a * x + m.c * y = x ∧ m.b * x + m.d * y = y) := by
  refine ⟨fun p => ?_, fun h => ?_, fun h p => ?_⟩
  · simp only [Matrix2D.translate, affine, real_add]; ext <;> simp <;> ring
  · have := h (0, 0)
    simp [Matrix2D.translate, affine] at this
    constructor <;> linarith [this.1, this.2]
  · simp only [Matrix2D.translate, affine, real_add]
    ext <;> simp <;> linarith [h.1, h.2]

/-- C81 for scalings. Partial: the scaling comes after the matrix, which is the same only if the matrix does not mix the coordinates where
the factors differ and does not translate where there is a factor. -/
theorem C81_scale_partial (m : Matrix2D ℝ) (x y : ℝ) : (∀ p, affine (m.scale x y) p = ((affine m p).1 * x, (affine m p).2 * y)) ∧
    ((∀ p, affine (m.scale x y) p = affine m (p.1 * x, p.2 * y)) ↔ m.c * (x - y) = 0 ∧ m.b * (x - y) = 0 ∧ m.e * (x - 1) = 0 ∧ m.f * (y - 1) = 0) := by
  refine ⟨fun p => ?_, fun h => ?_, fun ⟨h1, h2, h3, h4⟩ p => ?_⟩
  · simp only [Matrix2D.scale, affine, real_mul]; ext <;> simp <;> ring
  · have g0 := h (0, 0)
    have g1 := h (1, 0)
    have g2 := h (0, 1)
    simp [Matrix2D.scale, affine] at g0 g1 g2
    refine ⟨?_, ?_, ?_, ?_⟩ <;> linarith [g0.1, g0.2, g1.2, g2.1]
  · simp only [Matrix2D.scale, affine, real_mul]
    ext
    · simp only; linear_combination p.2 * h1 + h3
    · simp only; linear_combination -p.1 * h2 + h4

/-- C81 is false for rotations: after a translation the rotation also changes the translation. -/
theorem C81_rotate_false : ¬ ∀ (m : Matrix2D ℝ) (θ : ℝ) (p : P2), affine (m.rotate θ) p = affine m (rotatedBy θ p) := fun h => by
  have := (C81_rotate_partial ⟨1, 0, 0, 1, 1, 0⟩ Real.pi).1 (h _ _)
  norm_num at this

/-- C81 is false for translations: after a scaling by two, a translation by (1, 0) moves by one. -/
theorem C81_translate_false : ¬ ∀ (m : Matrix2D ℝ) (x y : ℝ) (p : P2), affine (m.translate x y) p = affine m (p + (x, y)) := fun h => by
  have := ((C81_translate_partial ⟨2, 0, 0, 2, 0, 0⟩ 1 0).2).1 (h _ _ _)
  norm_num at this

/-- C81 is false for scalings: after a translation by (1, 0), a scaling by two moves by two. -/
theorem C81_scale_false : ¬ ∀ (m : Matrix2D ℝ) (x y : ℝ) (p : P2), affine (m.scale x y) p = affine m (p.1 * x, p.2 * y) := fun h => by
  have := ((C81_scale_partial ⟨1, 0, 0, 1, 1, 0⟩ 2 1).2).1 (h _ _ _)
  norm_num at this

/-- The partial theorems cover, for instance, a rotation after a scaling, a translation after a translation and a uniform scaling after a skew. -/
example : (∀ p, affine ((⟨2, 0, 0, 3, 0, 0⟩ : Matrix2D ℝ).rotate 1) p = affine ⟨2, 0, 0, 3, 0, 0⟩ (rotatedBy 1 p)) ∧
    (∀ p, affine ((⟨1, 0, 0, 1, 5, 6⟩ : Matrix2D ℝ).translate 1 2) p = affine ⟨1, 0, 0, 1, 5, 6⟩ (p + (1, 2))) ∧
    ∀ p : P2, affine ((⟨1, 0, 2, 1, 0, 0⟩ : Matrix2D ℝ).scale 3 3) p = affine ⟨1, 0, 2, 1, 0, 0⟩ (p.1 * 3, p.2 * 3) :=
  ⟨(C81_rotate_partial _ _).2 (.inr ⟨rfl, rfl⟩), (C81_translate_partial _ _ _).2.2 (by norm_num), (C81_scale_partial _ _ _).2.2 (by norm_num)⟩

end GoSvg
