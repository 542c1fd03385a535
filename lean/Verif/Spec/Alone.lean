import Verif.Spec.Declared
import Verif.Spec.Nesting
import Verif.Spec.Attrs

/-! Specification: elements that do not hang together. -/

namespace GoSvg.Spec

/-- The elements that draw a shape of their own. -/
def shapes : List String := ["path", "rect", "circle", "ellipse", "line", "polyline", "polygon"]

/-- A group or a shape. -/
def GroupOrShape (n : Str) : Prop := n = "g".toList ∨ ∃ s ∈ shapes, n = s.toList

/-- Groups and shapes without a mask of their own; any text. -/
def DrawingOnly [GoEnv] (ts : List Token) : Prop := ∀ name attrs, Token.start name attrs ∈ ts → GroupOrShape name ∧ valuesOf "mask" attrs = []

/-- Each polyline and polygon has its points. -/
def Pointed (ts : List Token) : Prop :=
  ∀ name attrs, Token.start name attrs ∈ ts → name = "polyline".toList ∨ name = "polygon".toList → ∃ v, Given attrs "points" v

end GoSvg.Spec
