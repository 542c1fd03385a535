import Verif.Spec.Drawing

/-! Specification: the settings of the backends with which strokes are made. The semantics of the calls is that of the backends (trusted):
a setting stays in effect until the next call that sets it. -/

namespace GoSvg.Spec

variable {F : Type}

/-- What the calls say, each in the state that the calls before it have left. -/
def emitted {S C E : Type} (step : S → C → S × List E) : S → List C → List E
  | _, [] => []
  | b, c :: cs => (step b c).2 ++ emitted step (step b c).1 cs

/-- The line settings of draw2d and gg. -/
structure Pen (C J F : Type) where
  cap : Option C
  join : Option J
  dash : Option (List F)
  offset : Option F
deriving DecidableEq

def d2PenStep (b : Pen D2Cap D2Join F) : D2Call F → Pen D2Cap D2Join F × List (Pen D2Cap D2Join F)
  | .setLineCap c => ({ b with cap := some c }, [])
  | .setLineJoin j => ({ b with join := some j }, [])
  | .setLineDash d o => ({ b with dash := some d, offset := some o }, [])
  | .stroke => (b, [b])
  | .fillStroke => (b, [b])
  | _ => (b, [])

def ggPenStep (b : Pen D2Cap GGJoin F) : GGCall F → Pen D2Cap GGJoin F × List (Pen D2Cap GGJoin F)
  | .setLineCap c => ({ b with cap := some c }, [])
  | .setLineJoin j => ({ b with join := some j }, [])
  | .setDash d => ({ b with dash := some d }, [])
  | .setDashOffset o => ({ b with offset := some o }, [])
  | .stroke => (b, [b])
  | _ => (b, [])

/-- The line settings of rasterx: miter limit (in 1/64), caps at the two ends, gap and join. -/
structure RxPen where
  miterLimit : Int
  lead : RxCap
  trail : RxCap
  gap : RxGap
  join : JoinMode
deriving DecidableEq

def rxPenStep (b : Option RxPen) : Bool × RxCall F → Option RxPen × List (Option RxPen)
  | (false, .setStroke _ ml l t g j) => (some ⟨ml, l, t, g, j⟩, [])
  | (false, .draw) => (b, [b])
  | _ => (b, [])

/-- The caps of SVG. `cubic` and `quadratic` are additions of rasterx; the other backends draw butts. -/
def plainCap : List (CapMode × D2Cap) :=
  [(.nilCap, .butt), (.butt, .butt), (.square, .square), (.round, .round), (.cubic, .butt), (.quadratic, .butt)]

/-- The joins of SVG. -/
def d2Joins : List (JoinMode × D2Join) :=
  [(.arc, .miter), (.arcClip, .miter), (.miter, .miter), (.miterClip, .miter), (.bevel, .bevel), (.round, .round)]

/-- gg has no miter joins. -/
def ggJoins : List (JoinMode × GGJoin) :=
  [(.arc, .bevel), (.arcClip, .bevel), (.miter, .bevel), (.miterClip, .bevel), (.bevel, .bevel), (.round, .round)]

def rxCaps : List (CapMode × RxCap) :=
  [(.nilCap, .butt), (.butt, .butt), (.square, .square), (.round, .round), (.cubic, .cubic), (.quadratic, .quadratic)]

def rxGaps : List (GapMode × RxGap) :=
  [(.nilGap, .flat), (.flat, .flat), (.round, .round), (.cubic, .cubic), (.quadratic, .quadratic)]

/-- The paths of a drawing that have a line paint. -/
def stroked (s : Svg F) : List (SvgPath F) := s.svgPaths.filter fun p => p.style.linerColor.isSome

end GoSvg.Spec
