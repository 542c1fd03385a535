import Mathlib.Analysis.SpecialFunctions.Complex.Arg
import Verif.Model.Render
import Verif.Model.Decimal

/-! Exact arithmetic: `F = ℝ`. Rounding, infinities, NaN and signed zeros are absent (the literals `inf` and `nan` are
errors here); integer conversions out of range give what amd64 gives. -/

namespace GoSvg

open Classical in
/-- Truncation toward zero. -/
noncomputable def truncR (x : ℝ) : ℤ := if 0 ≤ x then ⌊x⌋ else ⌈x⌉

open Classical in
noncomputable instance realFloat : GoFloat ℝ where
  ofRat q := (q : ℝ)
  piMul q := (q : ℝ) * Real.pi
  add := (· + ·)
  sub := (· - ·)
  mul := (· * ·)
  div := (· / ·)
  neg := (- ·)
  lt x y := decide (x < y)
  le x y := decide (x ≤ y)
  eq x y := decide (x = y)
  abs x := |x|
  sqrt := Real.sqrt
  sin := Real.sin
  cos := Real.cos
  tan := Real.tan
  atan2 y x := Complex.arg ⟨x, y⟩
  ofInt n := (n : ℝ)
  toI32 x := if -2 ^ 31 ≤ truncR x ∧ truncR x < 2 ^ 31 then truncR x else -2 ^ 31
  toInt x := if -2 ^ 63 ≤ truncR x ∧ truncR x < 2 ^ 63 then truncR x else -2 ^ 63
  toU32 x := (truncR x % 2 ^ 32).toNat
  parse s := match parseLit s with
    | some (.fin neg q) => some (if neg then -(q : ℝ) else (q : ℝ))
    | _ => none

end GoSvg
