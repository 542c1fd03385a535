import Verif.Model.Parse
import Verif.Spec.Attrs

/-! Specification: what is left of a result without its width and height. -/

namespace GoSvg.Spec

variable {F : Type}

/-- The result without the width and the height. -/
def sizeless : Outcome F → Outcome F
  | .done svg e log => .done (svg.map fun s => { s with width := [], height := [] }) e log
  | .panic s => .panic s
  | .diverge => .diverge

/-- An attribute that says how large the picture is. -/
def IsSize (a : Attr) : Bool := a.name = "width".toList || a.name = "height".toList

/-- The text of the attribute `n` is `v`: as it is written, or empty without the attribute. -/
def TextAttr (attrs : List Attr) (n : String) (v : Str) : Prop := Given attrs n v ∨ ((∀ w, ¬ Given attrs n w) ∧ v = [])

end GoSvg.Spec
