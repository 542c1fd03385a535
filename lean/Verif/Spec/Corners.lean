import Verif.Spec.Ellipse
import Verif.Spec.SvgPath

/-! Specification: the rounded corners of rectangles. -/

namespace GoSvg.Spec

/-- The cubics go clockwise (y pointing down) along a quarter of the circle with radius `r` about (cx, cy), beginning at the angle `η`, in five equal
steps: they begin and end on the circle, leave and arrive along its tangent in the direction of travel, and are nowhere outside the circle or farther
inside than a six hundredth of the radius. -/
structure Rounds (cx cy r η : ℝ) (cs : List Cubic) : Prop where
  length : cs.length = 5
  start : ∀ j (h : j < cs.length), cs[j].p0 = (Ellipse.mk cx cy r r 0).point (η + Real.pi / 2 * j / 5)
  stop : ∀ j (h : j < cs.length), cs[j].p3 = (Ellipse.mk cx cy r r 0).point (η + Real.pi / 2 * (j + 1) / 5)
  tangent : ∃ α : ℝ, 0 < α ∧ ∀ j (h : j < cs.length), cs[j].p1 = cs[j].p0 + α • (Ellipse.mk cx cy r r 0).tangent (η + Real.pi / 2 * j / 5) ∧
    cs[j].p2 = cs[j].p3 - α • (Ellipse.mk cx cy r r 0).tangent (η + Real.pi / 2 * (j + 1) / 5)
  near : ∀ c ∈ cs, ∀ t, 0 ≤ t → t ≤ 1 →
    (1 - 1 / 600) ^ 2 * r ^ 2 ≤ ((c.at t).1 - cx) ^ 2 + ((c.at t).2 - cy) ^ 2 ∧ ((c.at t).1 - cx) ^ 2 + ((c.at t).2 - cy) ^ 2 ≤ r ^ 2

/-- The outline of a rectangle at (x, y), `w` wide and `h` high, with corners of radius `r`: it begins on the left of the upper side, follows the four
sides clockwise with a rounded corner after each, and is closed. The ends of the sides are visited twice. -/
def RoundedRect (x y w h r : ℝ) (ops : List (GOp ℝ)) : Prop :=
  ∃ c1 c2 c3 c4 : List Cubic,
    Rounds (x + w - r) (y + r) r (-(Real.pi / 2)) c1 ∧ Rounds (x + w - r) (y + h - r) r 0 c2 ∧
    Rounds (x + r) (y + h - r) r (Real.pi / 2) c3 ∧ Rounds (x + r) (y + r) r Real.pi c4 ∧
    ops = [.moveTo (x + r, y), .lineTo (x + w - r, y), .lineTo (x + w - r, y)] ++ c1.map (fun c => .cubicTo c.p1 c.p2 c.p3) ++
      [.lineTo (x + w, y + r), .lineTo (x + w, y + h - r), .lineTo (x + w, y + h - r)] ++ c2.map (fun c => .cubicTo c.p1 c.p2 c.p3) ++
      [.lineTo (x + w - r, y + h), .lineTo (x + r, y + h), .lineTo (x + r, y + h)] ++ c3.map (fun c => .cubicTo c.p1 c.p2 c.p3) ++
      [.lineTo (x, y + h - r), .lineTo (x, y + r), .lineTo (x, y + r)] ++ c4.map (fun c => .cubicTo c.p1 c.p2 c.p3) ++
      [.lineTo (x + r, y), .close]

end GoSvg.Spec
