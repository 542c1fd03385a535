import Verif.Model.F64
import Verif.Model.RealFloat
import Verif.Spec.SvgPath

/-! Specification: the numbers of binary64. -/

namespace GoSvg.Spec

/-- The magnitudes that binary64 can represent: integers of at most 53 bits times a power of two in range. -/
def RepAbs (q : ℚ) : Prop := ∃ (m : Nat) (e : Int), m < 2 ^ 53 ∧ -1074 ≤ e ∧ e ≤ 971 ∧ q = m * 2 ^ e

/-- The rationals that binary64 can represent. -/
def Rep (q : ℚ) : Prop := RepAbs |q|

/-- `x` is the finite number `q` of binary64: sign times significand times a power of two. -/
def Is (x : F64) (q : ℚ) : Prop :=
  ∃ s m e, x = .fin s m e ∧ (m < 2 ^ 53 ∧ -1074 ≤ e ∧ e ≤ 971) ∧ (if s then -((m : ℚ) * 2 ^ e) else m * 2 ^ e) = q

/-- `x` is a number of binary64 nearest to `q`. -/
def Nearest (x : F64) (q : ℚ) : Prop := ∃ p, Is x p ∧ ∀ r, Rep r → |p - q| ≤ |r - q|

/-- A multiple of `2^-k` of at most 51 bits. -/
def Grid (k : Nat) (r : ℝ) : Prop := ∃ n : ℤ, |n| ≤ 2 ^ 51 ∧ r = n / 2 ^ k

/-- Both coordinates are within the grid of step `2^-k` with numbers of at most 51 bits. -/
def Low2 (k : Nat) (r : Pnt ℝ) : Prop := |r.1| ≤ 2 ^ 51 / 2 ^ k ∧ |r.2| ≤ 2 ^ 51 / 2 ^ k

/-- So are all points of an operation. -/
def LowOp (k : Nat) : GOp ℝ → Prop
  | .moveTo p => Low2 k p
  | .lineTo p => Low2 k p
  | .quadTo p q => Low2 k p ∧ Low2 k q
  | .cubicTo p q r => Low2 k p ∧ Low2 k q ∧ Low2 k r
  | .close => True

/-- Both coordinates are at most `2^e` in magnitude. -/
def Up2 (e : Nat) (r : Pnt ℝ) : Prop := |r.1| ≤ 2 ^ e ∧ |r.2| ≤ 2 ^ e

/-- So are all points of an operation. -/
def UpOp (e : Nat) : GOp ℝ → Prop
  | .moveTo p => Up2 e p
  | .lineTo p => Up2 e p
  | .quadTo p q => Up2 e p ∧ Up2 e q
  | .cubicTo p q r => Up2 e p ∧ Up2 e q ∧ Up2 e r
  | .close => True

/-- The stored point, in pixels, is less than `d` away from `r` in both coordinates. -/
def PtWithin (d : ℝ) (p : Pt) (r : Pnt ℝ) : Prop := |(p.x / 64 : ℝ) - r.1| < d ∧ |(p.y / 64 : ℝ) - r.2| < d

/-- A stored operation of the same kind, all of whose points are less than `d` away. -/
inductive OpWithin (d : ℝ) : Op → GOp ℝ → Prop
  | moveTo {p r} : PtWithin d p r → OpWithin d (.moveTo p) (.moveTo r)
  | lineTo {p r} : PtWithin d p r → OpWithin d (.lineTo p) (.lineTo r)
  | quadTo {p p' r r'} : PtWithin d p r → PtWithin d p' r' → OpWithin d (.quadTo p p') (.quadTo r r')
  | cubicTo {p p' p'' r r' r''} : PtWithin d p r → PtWithin d p' r' → PtWithin d p'' r'' →
      OpWithin d (.cubicTo p p' p'') (.cubicTo r r' r'')
  | close : OpWithin d .close .close

end GoSvg.Spec
