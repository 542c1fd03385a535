import Verif.Model.RealFloat
import Verif.Spec.Cascade
import Verif.Spec.StyleText
import Verif.Spec.ColorText

/-! Specification: what the values declared for a property come to. -/

namespace GoSvg.Spec

/-- An inherited property: what the last value that can be read says, and its initial value when there is none. -/
def lastRead {α : Type} (read : Str → Option α) (initial : α) (vs : List Str) : α := ((vs.filterMap read).getLast?).getD initial

/-- Reads one of the keywords of a table. -/
def keyword {α : Type} (table : List (String × α)) (v : Str) : Option α := (table.find? fun p => p.1.toList = v).map (·.2)

/-- What percentages refer to. -/
noncomputable def refLength (vb : Bounds ℝ) : PercRef → ℝ
  | .width => vb.w
  | .height => vb.h
  | .diag => Real.sqrt (vb.w ^ 2 + vb.h ^ 2) / Real.sqrt 2

/-- `v` is the text of a length of `x` pixels: a number with a unit, or a percentage. -/
inductive LengthText (vb : Bounds ℝ) (ref : PercRef) : Str → ℝ → Prop
  | unit (n : Spelling) (hn : n.WF) {u : Str} {f : Rat} (hu : (u, f) ∈ units) {w w' w'' : Str} (hw : Blank w) (hw' : Blank w') (hw'' : Blank w'') :
      LengthText vb ref (w ++ (n.text ++ w' ++ u) ++ w'') (n.value * f)
  | percent (n : Spelling) (hn : n.WF) {w w' w'' : Str} (hw : Blank w) (hw' : Blank w') (hw'' : Blank w'') :
      LengthText vb ref (w ++ (n.text ++ w' ++ "%".toList) ++ w'') (n.value / 100 * refLength vb ref)

/-- `v` is the text of a colour, or `none` for no paint. -/
inductive PaintText [GoEnv] : Str → Option Color → Prop
  | hex {x1 x0 y1 y0 z1 z0 : Char} {r1 r0 g1 g0 b1 b0 : Nat} (h1 : HexDigit x1 r1) (h2 : HexDigit x0 r0) (h3 : HexDigit y1 g1)
      (h4 : HexDigit y0 g0) (h5 : HexDigit z1 b1) (h6 : HexDigit z0 b0) :
      PaintText ['#', x1, x0, y1, y0, z1, z0] (some ⟨16 * r1 + r0, 16 * g1 + g0, 16 * b1 + b0, 255⟩)
  | short {x y z : Char} {r g b : Nat} (h1 : HexDigit x r) (h2 : HexDigit y g) (h3 : HexDigit z b) :
      PaintText ['#', x, y, z] (some ⟨17 * r, 17 * g, 17 * b, 255⟩)
  | rgb {x y z : Component} (hx : x.WF) (hy : y.WF) (hz : z.WF) (rx : x.InRange) (ry : y.InRange) (rz : z.InRange) {r g b : Nat}
      (hr : (r : Int) = x.meaning) (hg : (g : Int) = y.meaning) (hb : (b : Int) = z.meaning) :
      PaintText (rgbText x.text y.text z.text) (some ⟨r, g, b, 255⟩)
  | name {v n : Str} {c : Color} (hv : (∀ c ∈ v, c.toNat < 128) ∧ v.map Char.toLower = n) (hc : GoEnv.colorName n = some c) : PaintText v (some c)
  | none {v : Str} (hv : (∀ c ∈ v, c.toNat < 128) ∧ v.map Char.toLower = "none".toList) : PaintText v none

end GoSvg.Spec
