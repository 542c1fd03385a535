import Verif.Spec.Corners

/-! Specification: outlines moved by (a, b). -/

namespace GoSvg.Spec

/-- An operation moved by (a, b). -/
noncomputable def GOp.moved (a b : ℝ) : GOp ℝ → GOp ℝ
  | .moveTo p => .moveTo (p.1 + a, p.2 + b)
  | .lineTo p => .lineTo (p.1 + a, p.2 + b)
  | .quadTo p q => .quadTo (p.1 + a, p.2 + b) (q.1 + a, q.2 + b)
  | .cubicTo p q r => .cubicTo (p.1 + a, p.2 + b) (q.1 + a, q.2 + b) (r.1 + a, r.2 + b)
  | .close => .close

end GoSvg.Spec
