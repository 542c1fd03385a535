import Verif.Spec.Computed
import Verif.Spec.Gradients

/-! Specification: the stops of a gradient. -/

namespace GoSvg.Spec

/-- `v` is the text of the number `x`, white space allowed around it. -/
inductive NumberText : Str → ℝ → Prop
  | mk (n : Spelling) (hn : n.WF) {w w' : Str} (hw : Blank w) (hw' : Blank w') : NumberText (w ++ n.text ++ w') n.value

/-- `v` is the text of the fraction `x`: a number, or a percentage. -/
inductive FractionText : Str → ℝ → Prop
  | number {v : Str} {x : ℝ} (h : NumberText v x) : FractionText v x
  | percent (n : Spelling) (hn : n.WF) {w w' w'' : Str} (hw : Blank w) (hw' : Blank w') (hw'' : Blank w'') :
      FractionText (w ++ (n.text ++ w' ++ "%".toList) ++ w'') (n.value / 100)

/-- The stop `s` is what the attributes say, in a gradient that paints over the colour `under`: at 0, opaque and with that colour
unless said otherwise. An attribute or property given several times counts the last time, and the (first) `style` attribute comes after
the attributes. -/
structure StopSays [GoEnv] (attrs : List Attr) (under : Color) (s : GradStop ℝ) : Prop where
  atStart : valuesNamed "offset" attrs = [] → s.offset = 0
  offset : ∀ v x, (valuesNamed "offset" attrs).getLast? = some v → FractionText v x → s.offset = x
  solid : stopValues "stop-opacity" attrs = [] → s.opacity = 1
  opacity : ∀ v x, (stopValues "stop-opacity" attrs).getLast? = some v → NumberText v x → s.opacity = x
  colorless : stopValues "stop-color" attrs = [] → s.stopColor = some under
  color : ∀ v c, (stopValues "stop-color" attrs).getLast? = some v → PaintText v c → s.stopColor = some (c.getD under)

end GoSvg.Spec
