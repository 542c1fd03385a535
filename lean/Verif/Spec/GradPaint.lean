import Verif.Spec.Strokes

/-! Specification: the paints that a backend should be given for the paints of a style, gradients included. -/

namespace GoSvg.Spec

variable {F : Type} [GoFloat F]

/-- What should be painted for a style: the fill with the fill paint and the fill rule, the stroke with the line paint and the width. -/
def paintings {P W : Type} (fill line : Pattern F → F → Option P) (width : F → W) (st : PathStyle F) (opacity : F) : List (Painted P W) :=
  (st.fillerColor.toList.map fun c => .fill (fill c (st.fillOpacity *. opacity)) st.useNonZeroWinding) ++
    st.linerColor.toList.map fun c => .stroke (line c (st.lineOpacity *. opacity)) (some (width st.lineWidth))

/-- A box in 1/64 px as bounds in px. -/
def boxOf (e : Pt × Pt) : Bounds F := ⟨px e.1.x, px e.1.y, px e.2.x -. px e.1.x, px e.2.y -. px e.1.y⟩

/-- The gradient of rasterx: everything as in the gradient of the style, except that the bounds of a gradient in objectBoundingBox units are
those of the painted outline. rasterx has no radius of the focal circle. -/
def rxGradient (g : Gradient F) (extent : Pt × Pt) : Option (RxGradient F) :=
  let bounds := if g.units = .objectBoundingBox then boxOf extent else g.bounds
  match g.direction with
  | some (.linear x1 y1 x2 y2) => some ⟨(x1, y1, x2, y2, num 0), g.stops, bounds, g.matrix, g.spread, g.units, false⟩
  | some (.radial cx cy fx fy r _) => some ⟨(cx, cy, fx, fy, r), g.stops, bounds, g.matrix, g.spread, g.units, true⟩
  | none => none

def rxPaintOf (extent : Pt × Pt) : Pattern F → F → Option (RxPaint F)
  | .plain c, o => some (.plain c o)
  | .gradient g, o => (rxGradient g extent).map (.gradient · o)

/-- The stops of gg: offset and colour, with the opacity of the stop times that of the paint. -/
def ggStops (stops : List (GradStop F)) (o : F) : Option (List (F × Color)) :=
  stops.mapM fun st => st.stopColor.map fun c => (st.offset, toColor c (st.opacity *. o))

/-- The pattern that is given to gg for a fill. Linear gradients run from the first point to the second. Of the two circles of a radial
gradient, gg has the first stop at the first; that is the circle of `cx, cy, r` here, where SVG has the last stop. -/
def ggPatternOf : Pattern F → F → Option (GGPattern F)
  | .plain c, o => some (.solid (toColor c o))
  | .gradient g, o => (ggStops g.stops o).bind fun stops => match g.direction with
    | some (.linear x1 y1 x2 y2) => some (.linear x1 y1 x2 y2 stops)
    | some (.radial cx cy fx fy r fr) => some (.radial cx cy r fx fy fr stops)
    | none => none

/-- A single colour for a paint: for a gradient that of its first stop that has one, else black. -/
def flat : Pattern F → Color
  | .plain c => c
  | .gradient g => ((g.stops.filterMap (·.stopColor)).head?).getD ⟨0, 0, 0, 255⟩

/-- Two gradients that differ at most in bounds, matrix, spread method and units. -/
def SameStops (g g' : Gradient F) : Prop := g.direction = g'.direction ∧ g.stops = g'.stops

/-- Two paths that differ at most in those of their gradients. -/
structure SamePath (p p' : SvgPath F) : Prop where
  path : p.path = p'.path
  style : { p.style with fillerColor := none, linerColor := none } = { p'.style with fillerColor := none, linerColor := none }
  fill : p.style.fillerColor = p'.style.fillerColor ∨
    ∃ g g', p.style.fillerColor = some (.gradient g) ∧ p'.style.fillerColor = some (.gradient g') ∧ SameStops g g'
  line : p.style.linerColor = p'.style.linerColor ∨
    ∃ g g', p.style.linerColor = some (.gradient g) ∧ p'.style.linerColor = some (.gradient g') ∧ SameStops g g'

end GoSvg.Spec
