import Verif.Model.Parse

/-! renderer/options.go and the three `Draw` functions, as the lists of calls they make to the drawing backend. -/

namespace GoSvg

variable {F : Type} [GoFloat F] [GoEnv]

/-! ### renderer/options.go -/

/-- options.go:7-12 -/
structure RenderOptions (F : Type) where
  opacity : F
  target : Matrix2D F

/-- options.go:14-17 `RenderOption`, whose two implementations are options.go:20 `Opacity` and 26-28 `targetOption` -/
inductive RenderOption (F : Type) where
  | opacity (o : F)
  | target (x y w h : F)

/-- options.go:22-24 and 30-34 -/
def RenderOption.apply (viewBox : Bounds F) (r : RenderOptions F) : RenderOption F → RenderOptions F
  | .opacity o => { r with opacity := o }
  | .target x y w h =>
    let scaleW := w /. viewBox.w
    let scaleH := h /. viewBox.h
    { r with target := (Matrix2D.identity.translate (x -. viewBox.x) (y -. viewBox.y)).scale scaleW scaleH }

/-- options.go:41-50. `Target` is not initialised: it is the zero value of the struct. -/
def options (viewBox : Bounds F) (opts : List (RenderOption F)) : RenderOptions F :=
  opts.foldl (RenderOption.apply viewBox)
    ⟨num 1, ⟨num 0, num 0, num 0, num 0, num 0, num 0⟩⟩

/-! ### Colours -/

/-- `c.RGBA()` of a color.NRGBA: components multiplied by alpha, 16 bits each. (All operations fit in uint32.) -/
def rgba16 (c : Color) : Nat × Nat × Nat × Nat :=
  (c.r * 257 * c.a / 255, c.g * 257 * c.a / 255, c.b * 257 * c.a / 255, c.a * 257)

/-- draw2d/draw.go:65-68 and gg/draw.go:75-78 `toColor`, a color.NRGBA -/
def toColor (c : Color) (opacity : F) : Color :=
  let (r, g, b, a) := rgba16 c
  ⟨r / 256 % 256, g / 256 % 256, b / 256 % 256, GoFloat.toU32 ((GoFloat.ofInt a : F) *. opacity) / 256 % 256⟩

/-! ### The draw2d renderer -/

inductive D2Cap where | butt | round | square
deriving DecidableEq, Repr
inductive D2Join where | miter | round | bevel
deriving DecidableEq, Repr

/-- The calls made to draw2d.GraphicContext -/
inductive D2Call (F : Type) where
  | close
  | beginPath
  | moveTo (x y : F)
  | lineTo (x y : F)
  | quadCurveTo (x1 y1 x y : F)
  | cubicCurveTo (x1 y1 x2 y2 x y : F)
  | setFillRule (winding : Bool)
  | setFillColor (c : Color)
  | setStrokeColor (c : Color)
  | setLineCap (c : D2Cap)
  | setLineJoin (j : D2Join)
  | setLineWidth (w : F)
  | setLineDash (d : List F) (offset : F)
  | fill
  | stroke
  | fillStroke
deriving DecidableEq, Repr

/-- `float64(t.X)/64` -/
def ofFix (n : Int) : F := GoFloat.ofInt n /. num 64

namespace Draw2d

/-- draw2d/draw.go:20-39 -/
def drawTo (op : Op) (m : Matrix2D F) : List (D2Call F) :=
  match op with
  | .moveTo p =>
    let t := m.moveTo p
    [.close, .beginPath, .moveTo (ofFix t.x) (ofFix t.y)]
  | .lineTo p =>
    let t := m.lineTo p
    [.lineTo (ofFix t.x) (ofFix t.y)]
  | .quadTo p q =>
    let (t1, t2) := m.quadTo p q
    [.quadCurveTo (ofFix t1.x) (ofFix t1.y) (ofFix t2.x) (ofFix t2.y)]
  | .cubicTo p q r =>
    let (t1, t2, t3) := m.cubicTo p q r
    [.cubicCurveTo (ofFix t1.x) (ofFix t1.y) (ofFix t2.x) (ofFix t2.y) (ofFix t3.x) (ofFix t3.y)]
  | .close => [.close]

/-- draw2d/draw.go:41-51 -/
def toLineCap : CapMode → D2Cap
  | .round => .round
  | .square => .square
  | _ => .butt

/-- draw2d/draw.go:53-63 -/
def toLineJoin : JoinMode → D2Join
  | .round => .round
  | .bevel => .bevel
  | _ => .miter

/-- draw2d/draw.go:65-72 and the type switches at 84-89, 94-99 -/
def patternColor (p : Pattern F) (opacity : F) : Color :=
  match p with
  | .plain c => toColor c opacity
  | .gradient g => toColor (getColor (some (.gradient g))) opacity

/-- draw2d/draw.go:74-117 -/
def drawTransformed (p : SvgPath F) (opt : RenderOptions F) : List (D2Call F) :=
  let m := p.style.transform.mult opt.target
  (match p.style.fillerColor with
    | some c =>
      [.setFillRule p.style.useNonZeroWinding, .setFillColor (patternColor c (p.style.fillOpacity *. opt.opacity))]
    | none => []) ++
  (match p.style.linerColor with
    | some c =>
      [.setLineCap (toLineCap p.style.join.trailLineCap), .setLineJoin (toLineJoin p.style.join.lineJoin),
       .setStrokeColor (patternColor c (p.style.lineOpacity *. opt.opacity)),
       .setLineWidth (p.style.lineWidth *. m.lineWidthScale),
       .setLineDash p.style.dash.dash p.style.dash.dashOffset]
    | none => []) ++
  p.path.flatMap (fun op => drawTo op m) ++
  (match p.style.fillerColor, p.style.linerColor with
    | some _, some _ => [.fillStroke]
    | some _, none => [.fill]
    | none, some _ => [.stroke]
    | none, none => [])

/-- draw2d/draw.go:12-18 -/
def draw (s : Svg F) (opts : List (RenderOption F)) : List (D2Call F) :=
  s.svgPaths.flatMap fun p => drawTransformed p (options s.viewBox opts)

end Draw2d

/-! ### The gg renderer -/

inductive GGJoin where | bevel | round
deriving DecidableEq, Repr

/-- A gg pattern handed to the context -/
inductive GGPattern (F : Type) where
  | solid (c : Color)
  | linear (x1 y1 x2 y2 : F) (stops : List (F × Color))
  | radial (x0 y0 r0 x1 y1 r1 : F) (stops : List (F × Color))
deriving DecidableEq, Repr

/-- The calls made to gg.Context. A mask is the context it was drawn in, i.e. the list of calls made to that. -/
inductive GGCall (F : Type) where
  | closePath
  | newSubPath
  | moveTo (x y : F)
  | lineTo (x y : F)
  | quadraticTo (x1 y1 x y : F)
  | cubicTo (x1 y1 x2 y2 x y : F)
  | setMask (content : List (GGCall F))
  | resetClip
  | setFillRule (winding : Bool)
  | setFillStyle (p : GGPattern F)
  | setColor (c : Color)
  | setLineCap (c : D2Cap)
  | setLineJoin (j : GGJoin)
  | setLineWidth (w : F)
  | setDash (d : List F)
  | setDashOffset (o : F)
  | fill
  | fillPreserve
  | stroke

namespace GG

/-- gg/draw.go:26-45 -/
def drawTo (op : Op) (m : Matrix2D F) : List (GGCall F) :=
  match op with
  | .moveTo p =>
    let t := m.moveTo p
    [.closePath, .newSubPath, .moveTo (ofFix t.x) (ofFix t.y)]
  | .lineTo p =>
    let t := m.lineTo p
    [.lineTo (ofFix t.x) (ofFix t.y)]
  | .quadTo p q =>
    let (t1, t2) := m.quadTo p q
    [.quadraticTo (ofFix t1.x) (ofFix t1.y) (ofFix t2.x) (ofFix t2.y)]
  | .cubicTo p q r =>
    let (t1, t2, t3) := m.cubicTo p q r
    [.cubicTo (ofFix t1.x) (ofFix t1.y) (ofFix t2.x) (ofFix t2.y) (ofFix t3.x) (ofFix t3.y)]
  | .close => [.closePath]

/-- gg/draw.go:47-57 (the same three caps as draw2d) -/
def toLineCap : CapMode → D2Cap
  | .round => .round
  | .square => .square
  | _ => .butt

/-- gg/draw.go:59-69 -/
def toLineJoin : JoinMode → GGJoin
  | .round => .round
  | _ => .bevel

/-- gg/draw.go:90-92: the colour stops; `none` when a stop colour is nil (a panic in `toColor`). -/
def toStops (opacity : F) : List (GradStop F) → Option (List (F × Color))
  | [] => some []
  | s :: ss => match s.stopColor, toStops opacity ss with
    | some c, some r => some ((s.offset, toColor c (s.opacity *. opacity)) :: r)
    | _, _ => none

/-- gg/draw.go:80-94. `none` is a panic: a nil stop colour, or a stop added to the nil gradient of a nil direction. The
nil gradient without stops is returned as nil by the code; it is a panic later, in the backend. -/
def toGradient (g : Gradient F) (opacity : F) : Option (GGPattern F) :=
  match g.direction, toStops opacity g.stops with
  | some (.linear x1 y1 x2 y2), some stops => some (.linear x1 y1 x2 y2 stops)
  | some (.radial cx cy fx fy r fr), some stops => some (.radial cx cy r fx fy fr stops)
  | _, _ => none

/-- gg/draw.go:115-129: what is set before drawing when there is a fill; `none` for a panic. -/
def fillSetup (st : PathStyle F) (opacity : F) : Option (List (GGCall F)) :=
  match st.fillerColor with
  | none => some []
  | some (.plain c) =>
    some [.setFillRule st.useNonZeroWinding, .setFillStyle (.solid (toColor c (st.fillOpacity *. opacity)))]
  | some (.gradient g) =>
    (toGradient g (st.fillOpacity *. opacity)).map fun p => [.setFillRule st.useNonZeroWinding, .setFillStyle p]

/-- gg/draw.go:130-143 -/
def strokeSetup (st : PathStyle F) (m : Matrix2D F) (opacity : F) : List (GGCall F) :=
  match st.linerColor with
  | none => []
  | some p =>
    let c := match p with
      | .plain c => toColor c (st.lineOpacity *. opacity)
      | .gradient g => toColor (getColor (some (.gradient g))) (st.lineOpacity *. opacity)
    [.setLineCap (toLineCap st.join.trailLineCap), .setLineJoin (toLineJoin st.join.lineJoin), .setColor c,
     .setLineWidth (st.lineWidth *. m.lineWidthScale), .setDash st.dash.dash, .setDashOffset st.dash.dashOffset]

/-- gg/draw.go:149-159 -/
def finish (st : PathStyle F) : List (GGCall F) :=
  (match st.fillerColor, st.linerColor with
    | some _, some _ => [.fillPreserve]
    | some _, none => [.fill]
    | none, _ => []) ++
  (match st.linerColor with
    | some _ => [.stroke]
    | none => [])

/-- The result of drawing: the calls, a panic, or no end. (The errors gg can return — a mask of the wrong size — do not
occur, as the mask has the size of the context.) -/
inductive Drawn (α : Type) where
  | ok (a : α)
  | panic
  | diverge

/-- One path after another into the same context. -/
def drawAll (f : SvgPath F → Drawn (List (GGCall F))) : List (SvgPath F) → Drawn (List (GGCall F))
  | [] => .ok []
  | p :: ps => match f p with
    | .ok cs => match drawAll f ps with
      | .ok cs' => .ok (cs ++ cs')
      | .panic => .panic
      | .diverge => .diverge
    | .panic => .panic
    | .diverge => .diverge

/-- gg/draw.go:112-161, with the calls `clip` made for the mask -/
def drawMasked (p : SvgPath F) (m : Matrix2D F) (opacity : F) (clip : List (GGCall F)) : Drawn (List (GGCall F)) :=
  match fillSetup p.style opacity with
  | none => .panic
  | some fs =>
    .ok (clip ++ fs ++ strokeSetup p.style m opacity ++ p.path.flatMap (fun op => drawTo op m) ++ finish p.style)

/-- gg/draw.go:96-161 `drawTransformed` together with 163-187 `getMask`, which call each other: one unit of fuel per
level of masks. The mask is the last one of the style; its content is drawn with the matrix of the masked path and
opacity 1. -/
def drawTransformed (s : Svg F) : Nat → SvgPath F → Matrix2D F → F → Drawn (List (GGCall F))
  | fuel, p, m, opacity =>
    match (p.style.masks.read s.arrays).getLast? with
    | none => drawMasked p m opacity [.resetClip]
    | some id =>
      match fuel with
      | 0 => .diverge
      | fuel + 1 =>
        match s.svgMasks.find id with
        | none => drawMasked p m opacity [.resetClip]
        | some mask =>
          match drawAll (fun q => drawTransformed s fuel q m (num 1)) mask.svgPaths with
          | .ok content => drawMasked p m opacity [.setMask content]
          | .panic => .panic
          | .diverge => .diverge

/-- gg/draw.go:14-24 -/
def draw (s : Svg F) (fuel : Nat) (opts : List (RenderOption F)) : Drawn (List (GGCall F)) :=
  let opt := options s.viewBox opts
  drawAll (fun p => drawTransformed s fuel p (p.style.transform.mult opt.target) opt.opacity) s.svgPaths

end GG

/-! ### The rasterx renderer -/

inductive RxCap where | butt | square | round | cubic | quadratic
deriving DecidableEq, Repr
inductive RxGap where | flat | round | cubic | quadratic
deriving DecidableEq, Repr

/-- rasterx.Gradient as built by `toRasterxGradient` -/
structure RxGradient (F : Type) where
  points : F × F × F × F × F
  stops : List (GradStop F)
  bounds : Bounds F
  matrix : Matrix2D F
  spread : SpreadMethod
  units : GradientUnits
  isRadial : Bool
deriving DecidableEq, Repr

/-- What `SetColor` is given: `rasterx.ApplyOpacity(c, o)` or the colour function of a gradient. -/
inductive RxPaint (F : Type) where
  | plain (c : Color) (opacity : F)
  | gradient (g : RxGradient F) (opacity : F)
deriving DecidableEq, Repr

/-- The calls made to the Filler or the Stroker inside a rasterx.Dasher -/
inductive RxCall (F : Type) where
  | clear
  | setWinding (w : Bool)
  | setStroke (width miterLimit : Int) (capL capT : RxCap) (gap : RxGap) (join : JoinMode)
  | stop (closeLoop : Bool)
  | start (p : Pt)
  | line (p : Pt)
  | quadBezier (p q : Pt)
  | cubeBezier (p q r : Pt)
  | setColor (p : RxPaint F)
  | draw
deriving DecidableEq, Repr

/-- A call and the object it is made on: `true` for the filler, `false` for the stroker. -/
abbrev RxTrace (F : Type) := List (Bool × RxCall F)

/-- What the model leaves open about rasterx: `GetPathExtent`, as a function of the calls made since `Clear`. -/
class RxEnv (F : Type) where
  extent : RxTrace F → Pt × Pt

namespace Rx

/-- rasterx/draw.go:20-33 and 35-48 -/
def drawTo (op : Op) (m : Matrix2D F) : List (RxCall F) :=
  match op with
  | .moveTo p => [.stop false, .start (m.moveTo p)]
  | .lineTo p => [.line (m.lineTo p)]
  | .quadTo p q =>
    let (t1, t2) := m.quadTo p q
    [.quadBezier t1 t2]
  | .cubicTo p q r =>
    let (t1, t2, t3) := m.cubicTo p q r
    [.cubeBezier t1 t2 t3]
  | .close => [.stop true]

/-- rasterx/draw.go:50-62 -/
def toLineGap : GapMode → RxGap
  | .flat => .flat
  | .round => .round
  | .cubic => .cubic
  | .quadratic => .quadratic
  | .nilGap => .flat

/-- rasterx/draw.go:64-81 -/
def toLineCap (cap : CapMode) (dflt : RxCap) : RxCap :=
  match cap with
  | .nilCap => dflt
  | .butt => .butt
  | .cubic => .cubic
  | .quadratic => .quadratic
  | .round => .round
  | .square => .square

/-- rasterx/draw.go:101-128 -/
def toRasterxGradient (g : Gradient F) : RxGradient F :=
  let (points, isRadial) : (F × F × F × F × F) × Bool :=
    match g.direction with
    | some (.linear x1 y1 x2 y2) => ((x1, y1, x2, y2, num 0), false)
    | some (.radial cx cy fx fy r _) => ((cx, cy, fx, fy, r), true)
    | none => ((num 0, num 0, num 0, num 0, num 0), false)
  ⟨points, g.stops, g.bounds, g.matrix, g.spread, g.units, isRadial⟩

/-- rasterx/draw.go:145-152 and 171-178. `color` is a copy of the style's gradient, so `ApplyPathExtent` does not change
the style. -/
def paint [RxEnv F] (sofar : RxTrace F) (p : Pattern F) (opacity : F) : RxPaint F :=
  match p with
  | .plain c => .plain c opacity
  | .gradient g =>
    let (mn, mx) := RxEnv.extent sofar
    .gradient (toRasterxGradient (applyPathExtent g mn mx).1) opacity

/-- rasterx/draw.go:134-154 -/
def fillCalls [RxEnv F] (p : SvgPath F) (m : Matrix2D F) (opt : RenderOptions F) : RxTrace F :=
  match p.style.fillerColor with
  | none => []
  | some c =>
    let tr : List (RxCall F) :=
      [.clear, .setWinding p.style.useNonZeroWinding] ++ p.path.flatMap (fun op => drawTo op m) ++ [.stop false]
    let tr := tr.map fun x => (true, x)
    tr ++ [(true, .setColor (paint tr c (p.style.fillOpacity *. opt.opacity))), (true, .draw)]

/-- rasterx/draw.go:155-180 -/
def strokeCalls [RxEnv F] (p : SvgPath F) (m : Matrix2D F) (opt : RenderOptions F) : RxTrace F :=
  match p.style.linerColor with
  | none => []
  | some c =>
    let j := p.style.join
    let tr : List (RxCall F) :=
      [.clear,
       .setStroke (GoFloat.toI32 (p.style.lineWidth *. num 64 *. m.lineWidthScale)) j.miterLimit
        (toLineCap j.leadLineCap (toLineCap j.trailLineCap .butt)) (toLineCap j.trailLineCap .butt)
        (toLineGap j.lineGap) j.lineJoin] ++
      p.path.flatMap (fun op => drawTo op m) ++ [.stop false]
    let tr := tr.map fun x => (false, x)
    tr ++ [(false, .setColor (paint tr c (p.style.lineOpacity *. opt.opacity))), (false, .draw)]

/-- rasterx/draw.go:131-180 -/
def drawTransformed [RxEnv F] (p : SvgPath F) (opt : RenderOptions F) : RxTrace F :=
  let m := p.style.transform.mult opt.target
  fillCalls p m opt ++ strokeCalls p m opt

/-- rasterx/draw.go:12-18 -/
def draw [RxEnv F] (s : Svg F) (opts : List (RenderOption F)) : RxTrace F :=
  s.svgPaths.flatMap fun p => drawTransformed p (options s.viewBox opts)

end Rx

end GoSvg
