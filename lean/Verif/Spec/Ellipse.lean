import Mathlib.Analysis.SpecialFunctions.Trigonometric.Basic

/-! Specification: rotated ellipses and the elliptical arcs of SVG (implementation notes F.6). -/

namespace GoSvg.Spec

/-- Centre, radii, rotation in radians. -/
structure Ellipse where
  cx : ℝ
  cy : ℝ
  ra : ℝ
  rb : ℝ
  rot : ℝ

namespace Ellipse

/-- Coordinates along the axes of the ellipse, seen from its centre. -/
noncomputable def along (e : Ellipse) (x y : ℝ) : ℝ × ℝ :=
  ((x - e.cx) * Real.cos e.rot + (y - e.cy) * Real.sin e.rot, -(x - e.cx) * Real.sin e.rot + (y - e.cy) * Real.cos e.rot)

/-- The point lies on the ellipse. -/
def Through (e : Ellipse) (x y : ℝ) : Prop := ((e.along x y).1 / e.ra) ^ 2 + ((e.along x y).2 / e.rb) ^ 2 = 1

/-- The point at the parameter `η`. -/
noncomputable def point (e : Ellipse) (η : ℝ) : ℝ × ℝ :=
  (e.cx + e.ra * Real.cos η * Real.cos e.rot - e.rb * Real.sin η * Real.sin e.rot,
   e.cy + e.ra * Real.cos η * Real.sin e.rot + e.rb * Real.sin η * Real.cos e.rot)

/-- The derivative of `point`. -/
noncomputable def tangent (e : Ellipse) (η : ℝ) : ℝ × ℝ :=
  (-(e.ra * Real.sin η) * Real.cos e.rot - e.rb * Real.cos η * Real.sin e.rot,
   -(e.ra * Real.sin η) * Real.sin e.rot + e.rb * Real.cos η * Real.cos e.rot)

end Ellipse

/-- There is an ellipse with these radii and this rotation through both points. -/
def Fits (ra rb rot x0 y0 x y : ℝ) : Prop :=
  ∃ cx cy, (Ellipse.mk cx cy ra rb rot).Through x0 y0 ∧ (Ellipse.mk cx cy ra rb rot).Through x y

/-- The least factor, not below one, by which the radii must be enlarged for an ellipse through both points. -/
def LeastScale (ra rb rot x0 y0 x y k : ℝ) : Prop :=
  1 ≤ k ∧ Fits (k * ra) (k * rb) rot x0 y0 x y ∧
    ∀ k', 1 ≤ k' → Fits (k' * ra) (k' * rb) rot x0 y0 x y → k ≤ k'

/-- The arc from (x0, y0) to (x, y) that SVG prescribes is the part of `e` from the parameter `η` to `η + δ`. -/
structure IsArc (rx ry rot : ℝ) (large sweep : Bool) (x0 y0 x y : ℝ) (e : Ellipse) (η δ : ℝ) : Prop where
  rotation : e.rot = rot
  scale : ∃ k, LeastScale rx ry rot x0 y0 x y k ∧ e.ra = k * rx ∧ e.rb = k * ry
  start : e.point η = (x0, y0)
  stop : e.point (η + δ) = (x, y)
  direction : if sweep then 0 < δ else δ < 0
  size : if large then Real.pi ≤ |δ| else |δ| ≤ Real.pi
  turn : |δ| < 2 * Real.pi

end GoSvg.Spec

namespace GoSvg.Spec

/-- A cubic Bézier curve by its four control points. -/
structure Cubic where
  p0 : ℝ × ℝ
  p1 : ℝ × ℝ
  p2 : ℝ × ℝ
  p3 : ℝ × ℝ

/-- The point of a cubic at the time `t`. -/
def Cubic.at (c : Cubic) (t : ℝ) : ℝ × ℝ :=
  ((1 - t) ^ 3 * c.p0.1 + 3 * (1 - t) ^ 2 * t * c.p1.1 + 3 * (1 - t) * t ^ 2 * c.p2.1 + t ^ 3 * c.p3.1,
   (1 - t) ^ 3 * c.p0.2 + 3 * (1 - t) ^ 2 * t * c.p1.2 + 3 * (1 - t) * t ^ 2 * c.p2.2 + t ^ 3 * c.p3.2)

/-- One on the ellipse, less inside, more outside: the square of the distance from the centre in units of the radii. -/
noncomputable def Ellipse.level (e : Ellipse) (p : ℝ × ℝ) : ℝ :=
  ((e.along p.1 p.2).1 / e.ra) ^ 2 + ((e.along p.1 p.2).2 / e.rb) ^ 2

/-- The cubics trace the ellipse from the parameter `η` to `η + δ` in `n` equal steps: they begin and end on the ellipse,
leave and arrive along its tangent in the direction of travel, and are nowhere farther from the ellipse than a millionth. -/
structure Traces (e : Ellipse) (η δ : ℝ) (n : Nat) (cs : List Cubic) : Prop where
  length : cs.length = n
  few : 1 ≤ n ∧ n ≤ 17
  start : ∀ j (h : j < cs.length), cs[j].p0 = e.point (η + δ * j / n)
  stop : ∀ j (h : j < cs.length), cs[j].p3 = e.point (η + δ * (j + 1) / n)
  tangent : ∃ α, 0 ≤ α * δ ∧ ∀ j (h : j < cs.length), cs[j].p1 = cs[j].p0 + α • e.tangent (η + δ * j / n) ∧
    cs[j].p2 = cs[j].p3 - α • e.tangent (η + δ * (j + 1) / n)
  near : ∀ c ∈ cs, ∀ t, 0 ≤ t → t ≤ 1 → 1 - 1 / 1000000 ≤ e.level (c.at t) ∧ e.level (c.at t) ≤ 1

/-- They do so in steps of less than π/8. -/
structure Follows (e : Ellipse) (η δ : ℝ) (n : Nat) (cs : List Cubic) : Prop extends Traces e η δ n cs where
  step : |δ| / n < Real.pi / 8

end GoSvg.Spec
