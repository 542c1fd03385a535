import Mathlib.Data.Real.Basic
import Verif.Model.Types

/-! Specification: truncation toward zero, and the 26.6 grid. -/

namespace GoSvg.Spec

/-- `n` is `v` truncated toward zero: on the same side, not farther from zero, less than one away. -/
def IsTrunc (v : ℝ) (n : ℤ) : Prop :=
  (0 ≤ v → (n : ℝ) ≤ v ∧ v < n + 1) ∧ (v < 0 → v ≤ n ∧ (n : ℝ) - 1 < v)

/-- `v` (in px) can be stored as an int32 number of 1/64 px. -/
def InFixRange (v : ℝ) : Prop := -2 ^ 31 ≤ v * 64 ∧ v * 64 < 2 ^ 31

/-- The point of the plane a 26.6 point stands for. -/
noncomputable def fixed (p : Pt) : ℝ × ℝ := (p.x / 64, p.y / 64)

end GoSvg.Spec
