import Verif.Model.Parse

/-! Specification: comparing results of `Parse`. -/

namespace GoSvg.Spec

variable {F : Type}

/-- The result apart from what was logged. -/
def Outcome.quiet : Outcome F → Outcome F
  | .done svg err _ => .done svg err []
  | .panic s => .panic s
  | .diverge => .diverge

/-- What was logged. -/
def Outcome.logged : Outcome F → List Msg
  | .done _ _ log => log
  | _ => []

/-- The elements that draw (SVG 1.1, chapters 8 and 9, and `use`). -/
def drawing : List String := ["path", "rect", "circle", "ellipse", "line", "polyline", "polygon", "use"]

/-- The elements the package knows (README of the package: structure, texts, paint servers, masks and the drawing ones). -/
def supported : List String :=
  ["svg", "g", "desc", "title", "defs", "linearGradient", "radialGradient", "stop", "mask"] ++ drawing

/-- A start tag of an element that draws. -/
def Token.Draws (t : Token) : Prop := ∃ name ∈ drawing, ∃ attrs, t = .start name.toList attrs

/-- A name the package does not know. -/
def Unknown (name : Str) : Prop := ∀ n ∈ supported, name ≠ n.toList

/-- The names of the masks of a path. -/
def maskNames (svg : Svg F) (p : SvgPath F) : List Str := p.style.masks.read svg.arrays

end GoSvg.Spec
