import Verif.Spec.Use

/-! Specification: content drawn at another place. -/

namespace GoSvg.Spec

/-- Elements of a definition for which the offset of a `use` is a shift, in any arithmetic: groups, lines, polylines and polygons
with points, and paths without arcs. -/
def ShiftablePlain (d : Definition) : Prop :=
  d.tag ∈ ["g".toList, "endg".toList, "line".toList] ∨
  ((d.tag = "polyline".toList ∨ d.tag = "polygon".toList) ∧ valuesNamed "points" d.attrs ≠ []) ∨
  (d.tag = "path".toList ∧ ∀ v ∈ valuesNamed "d" d.attrs, 'a' ∉ v ∧ 'A' ∉ v)

instance (d : Definition) : Decidable (ShiftablePlain d) := inferInstanceAs (Decidable (_ ∨ _))

/-- Elements for which it is a shift in exact arithmetic: besides these, circles, ellipses, and rectangles with square corners. -/
def Shiftable (d : Definition) : Prop :=
  ShiftablePlain d ∨ (d.tag = "circle".toList ∨ d.tag = "ellipse".toList) ∨
  (d.tag = "rect".toList ∧ valuesNamed "rx" d.attrs = [] ∧ valuesNamed "ry" d.attrs = [])

instance (d : Definition) : Decidable (Shiftable d) := inferInstanceAs (Decidable (_ ∨ _))

/-- A path element stands before all other shapes. -/
def PathFirst (ds : List Definition) : Prop :=
  ds.Pairwise fun d d' => d'.tag = "path".toList → d.tag = "g".toList ∨ d.tag = "endg".toList

instance (ds : List Definition) : Decidable (PathFirst ds) := inferInstanceAs (Decidable (List.Pairwise _ _))

/-- The elements of a definition as they would be written in the place of the `use`. -/
def content (ds : List Definition) : List Token :=
  ds.flatMap fun d =>
    if d.tag = "endg".toList then [.stop "g".toList]
    else if d.tag = "g".toList then [.start d.tag d.attrs]
    else [.start d.tag d.attrs, .stop d.tag]

variable {F : Type} [GoFloat F]

/-- `ops'` are the operations `ops`, shifted by (x, y) before they are rounded. -/
def Shifted (x y : F) (ops ops' : Path) : Prop :=
  ∃ R : List (GOp F), ops = R.map (GOp.store toFix (num 0) (num 0)) ∧ ops' = R.map (GOp.store toFix x y)

/-- The tokens are read without a failure, and `s` is the picture then: if the stream breaks off after them, that is the only error. -/
def Yields [GoEnv] (fuel : Nat) (m : ErrorMode) (ts : List Token) (s : Svg F) : Prop :=
  ∀ e, ∃ l, parse (F := F) fuel m ts (.error e) = .done (some s) (some (.reader e)) l

end GoSvg.Spec
