import Mathlib.Analysis.SpecialFunctions.Trigonometric.Basic
import Verif.Model.Types

/-! Specification: the plane, and what the SVG transformations mean (SVG 2, section 8.6). Nothing here refers to the
functions of the model; `Matrix2D` is only the record of six numbers. -/

namespace GoSvg.Spec

/-- A point of the plane. -/
abbrev P2 := ℝ × ℝ

/-- The map a matrix (a b c d e f) stands for: (x, y) ↦ (a x + c y + e, b x + d y + f). -/
def affine (m : Matrix2D ℝ) (p : P2) : P2 :=
  (m.a * p.1 + m.c * p.2 + m.e, m.b * p.1 + m.d * p.2 + m.f)

/-- The SVG transform functions. Angles in degrees. -/
inductive Fn where
  | translate (x y : ℝ)
  | scale (x y : ℝ)
  | rotate (a : ℝ)
  | rotateAbout (a x y : ℝ)
  | skewX (a : ℝ)
  | skewY (a : ℝ)
  | matrix (m : Matrix2D ℝ)

noncomputable def rad (a : ℝ) : ℝ := a * Real.pi / 180

/-- Rotation about the origin by `a` degrees. -/
noncomputable def rot (a : ℝ) (p : P2) : P2 :=
  (Real.cos (rad a) * p.1 - Real.sin (rad a) * p.2, Real.sin (rad a) * p.1 + Real.cos (rad a) * p.2)

/-- The meaning of a transform function. -/
noncomputable def Fn.apply : Fn → P2 → P2
  | .translate x y, p => (p.1 + x, p.2 + y)
  | .scale x y, p => (p.1 * x, p.2 * y)
  | .rotate a, p => rot a p
  | .rotateAbout a x y, p => ((rot a (p.1 - x, p.2 - y)).1 + x, (rot a (p.1 - x, p.2 - y)).2 + y)
  | .skewX a, p => (p.1 + Real.tan (rad a) * p.2, p.2)
  | .skewY a, p => (p.1, p.2 + Real.tan (rad a) * p.1)
  | .matrix m, p => affine m p

/-- A transform list: the right-most function is applied first. -/
noncomputable def applyList (fs : List Fn) (p : P2) : P2 := fs.foldr Fn.apply p

end GoSvg.Spec
