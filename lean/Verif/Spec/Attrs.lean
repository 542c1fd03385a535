import Verif.Model.Parse
import Verif.Spec.Numbers

/-! Specification: what an attribute list says about a length. -/

namespace GoSvg.Spec

variable {F : Type} [GoFloat F]

/-- The attribute list gives the attribute `n` the value `v`. -/
def Given (attrs : List Attr) (n : String) (v : Str) : Prop := ⟨n.toList, v⟩ ∈ attrs

/-- No attribute occurs twice, as XML demands. -/
def Distinct (attrs : List Attr) : Prop := (attrs.map Attr.name).Nodup

/-- The length `n` of an element is `x`: the value of the attribute, or zero without the attribute. Percentages refer to the
part `r` of the view box `vb`. -/
def Len (vb : Bounds F) (attrs : List Attr) (n : String) (r : PercRef) (x : F) : Prop :=
  (∃ v, Given attrs n v ∧ resolveUnit vb v r = .ok x) ∨ ((∀ v, ¬ Given attrs n v) ∧ x = num 0)

end GoSvg.Spec

namespace GoSvg.Spec

variable {F : Type} [GoFloat F] [GoEnv]

/-- The radii of a circle or an ellipse: given by `r`, or by `rx` and `ry`, not by both. -/
def Radii (vb : Bounds F) (attrs : List Attr) (rx ry : F) : Prop :=
  (Len vb attrs "r" .diag rx ∧ ry = rx ∧ (∀ v, ¬ Given attrs "rx" v) ∧ ∀ v, ¬ Given attrs "ry" v) ∨
    (Len vb attrs "rx" .width rx ∧ Len vb attrs "ry" .height ry ∧ ∀ v, ¬ Given attrs "r" v)

/-- `v` is a way of writing the numbers `args`, in any layout and spelling. -/
def WritesNumbers (args : List F) (v : Str) : Prop :=
  ∃ (l : GroupList) (vs : List F), v = l.text ∧ l.WF ∧ readAll (l.numbers.map Spelling.text) = some vs ∧
    args = vs.map (· *. num 1)

/-- The number `n` of an svg element is `x`: the number of the attribute, or zero without the attribute. -/
def NumAttr (attrs : List Attr) (n : String) (x : F) : Prop :=
  (∃ v, Given attrs n v ∧ parseBasicFloat v = .ok x) ∨ ((∀ v, ¬ Given attrs n v) ∧ x = num 0)

/-- The view box of an svg element is `vb`: the four numbers of the attribute, or zeros without the attribute. -/
def BoxAttr (attrs : List Attr) (vb : Bounds F) : Prop :=
  (∃ v, Given attrs "viewBox" v ∧ WritesNumbers [vb.x, vb.y, vb.w, vb.h] v) ∨
    ((∀ v, ¬ Given attrs "viewBox" v) ∧ vb = ⟨num 0, num 0, num 0, num 0⟩)

/-- Outside `defs` and masks, nothing drawn that has not been emitted, and `st` the current style. -/
structure Ready (c : Cursor F) (st : PathStyle F) : Prop where
  defs : c.inDefs = false
  mask : c.inMask = false
  path : c.pc.path = []
  style : c.styleStack.head? = some st

/-- The result of reading a start tag: success, and the picture has got the paths `ps` and is unchanged otherwise. -/
def Adds (r : Res Unit × Cursor F) (c : Cursor F) (ps : List (SvgPath F)) : Prop :=
  r.1 = .ok () ∧ r.2.svg = { c.svg with svgPaths := c.svg.svgPaths ++ ps } ∧ r.2.styleStack = c.styleStack

end GoSvg.Spec
