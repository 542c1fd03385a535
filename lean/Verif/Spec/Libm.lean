import Verif.Spec.Float64
import Mathlib.Analysis.SpecialFunctions.Trigonometric.Basic

/-! Specification: what is asked of the sine, cosine, tangent and arc tangent of a mathematics library. -/

namespace GoSvg.Spec

/-- The constant `math.Pi` of Go. -/
def goPi : ℚ := 314159265358979323846264338327950288419716939937510582097494459 / 10 ^ 62

/-- `x` is a finite number at most `2^-50` away from `r`. -/
def Fine (x : F64) (r : ℝ) : Prop := ∃ p : ℚ, Is x p ∧ |(p : ℝ) - r| ≤ 1 / 2 ^ 50

/-- The library computes the sine and cosine up to 8 and the tangent up to 1 with an error of at most `2^-50`, and the documented special
cases at zero exactly; constants that are multiples of pi are rounded once. -/
structure Accurate [Libm] : Prop where
  piMul : ∀ q, Libm.piMul q = F64.roundRat false (q * goPi)
  sin : ∀ x q, Is x q → |q| ≤ 8 → Fine (Libm.sin x) (Real.sin q)
  cos : ∀ x q, Is x q → |q| ≤ 8 → Fine (Libm.cos x) (Real.cos q)
  tan : ∀ x q, Is x q → |q| ≤ 1 → Fine (Libm.tan x) (Real.tan q)
  sin_zero : ∀ s e, Libm.sin (.fin s 0 e) = .fin s 0 (-1074)
  cos_zero : ∀ s e, Is (Libm.cos (.fin s 0 e)) 1
  atan2_zero : ∀ e x, x ≠ .nan → x.sign = false → Libm.atan2 (.fin false 0 e) x = .fin false 0 (-1074)

/-- Sine and cosine are accurate up to 10, and the arc tangent of a point other than the origin is at most `2^-50` away from an angle
between -π and π under which the point is seen. (For a negative abscissa and an ordinate of either zero that may be π or -π.) -/
structure Angular [Libm] : Prop where
  sin : ∀ x q, Is x q → |q| ≤ 10 → Fine (Libm.sin x) (Real.sin q)
  cos : ∀ x q, Is x q → |q| ≤ 10 → Fine (Libm.cos x) (Real.cos q)
  atan2 : ∀ y x q p, Is y q → Is x p → (p, q) ≠ (0, 0) → ∃ a : ℝ, |a| ≤ Real.pi ∧ Fine (Libm.atan2 y x) a ∧
    Real.sqrt ((p : ℝ) ^ 2 + (q : ℝ) ^ 2) * Real.cos a = p ∧ Real.sqrt ((p : ℝ) ^ 2 + (q : ℝ) ^ 2) * Real.sin a = q

/-- The documented special cases of the arc tangent along the axes. -/
structure AtanAxes [Libm] : Prop where
  up : ∀ y q s e, Is y q → q < 0 → Libm.atan2 y (.fin s 0 e) = .neg (Libm.piMul (1 / 2))
  down : ∀ y q s e, Is y q → 0 < q → Libm.atan2 y (.fin s 0 e) = Libm.piMul (1 / 2)
  left : ∀ e x q, Is x q → q < 0 → Libm.atan2 (.fin false 0 e) x = Libm.piMul 1

end GoSvg.Spec
