import Verif.Model.Render

/-! Specification: what the calls to a drawing backend do to the pen and to the picture. -/

namespace GoSvg.Spec

variable {F : Type} [GoFloat F]

/-- What a call does that matters for the shape drawn: pen movements in px, fill, stroke. Setting colours, widths and so on does
nothing of this kind. -/
inductive Event (F : Type) where
  | move (x y : F)
  | line (x y : F)
  | quad (x1 y1 x y : F)
  | cubic (x1 y1 x2 y2 x y : F)
  | close
  | fill
  | stroke
deriving DecidableEq

def Event.isPaint : Event F → Bool
  | .fill => true
  | .stroke => true
  | _ => false

def d2Events : D2Call F → List (Event F)
  | .close => [.close]
  | .moveTo x y => [.move x y]
  | .lineTo x y => [.line x y]
  | .quadCurveTo x1 y1 x y => [.quad x1 y1 x y]
  | .cubicCurveTo x1 y1 x2 y2 x y => [.cubic x1 y1 x2 y2 x y]
  | .fill => [.fill]
  | .stroke => [.stroke]
  | .fillStroke => [.fill, .stroke]
  | _ => []

def ggEvents : GGCall F → List (Event F)
  | .closePath => [.close]
  | .moveTo x y => [.move x y]
  | .lineTo x y => [.line x y]
  | .quadraticTo x1 y1 x y => [.quad x1 y1 x y]
  | .cubicTo x1 y1 x2 y2 x y => [.cubic x1 y1 x2 y2 x y]
  | .fill => [.fill]
  | .fillPreserve => [.fill]
  | .stroke => [.stroke]
  | _ => []

/-- 1/64 px to px -/
def px (n : Int) : F := GoFloat.ofInt n /. num 64

def rxEvents : RxCall F → List (Event F)
  | .start p => [.move (px p.x) (px p.y)]
  | .line p => [.line (px p.x) (px p.y)]
  | .quadBezier p q => [.quad (px p.x) (px p.y) (px q.x) (px q.y)]
  | .cubeBezier p q r => [.cubic (px p.x) (px p.y) (px q.x) (px q.y) (px r.x) (px r.y)]
  | .stop true => [.close]
  | _ => []

/-- The operation with each of its points mapped by `f`, as a pen movement. -/
def penOf (f : Pt → Pt) : Op → Event F
  | .moveTo p => .move (px (f p).x) (px (f p).y)
  | .lineTo p => .line (px (f p).x) (px (f p).y)
  | .quadTo p q => .quad (px (f p).x) (px (f p).y) (px (f q).x) (px (f q).y)
  | .cubicTo p q r => .cubic (px (f p).x) (px (f p).y) (px (f q).x) (px (f q).y) (px (f r).x) (px (f r).y)
  | .close => .close

/-- Fill if there is a fill paint, then stroke if there is a stroke paint. -/
def paintOf (st : PathStyle F) : List (Event F) :=
  (if st.fillerColor.isSome then [.fill] else []) ++ (if st.linerColor.isSome then [.stroke] else [])

/-! ### What is painted with what

The backends keep the paint, the fill rule and the line width set last; `fill` and `stroke` use them. The semantics of the calls
below is that of the backends (trusted): in gg, `SetColor` sets the paint of fills *and* strokes. -/

/-- One painting, with what was in effect. -/
inductive Painted (P W : Type) where
  | fill (p : Option P) (winding : Bool)
  | stroke (p : Option P) (width : Option W)
deriving DecidableEq

structure Brush (P W : Type) where
  fillPaint : Option P := none
  strokePaint : Option P := none
  width : Option W := none
  winding : Bool := true

def d2Step (b : Brush Color F) : D2Call F → Brush Color F × List (Painted Color F)
  | .setFillRule w => ({ b with winding := w }, [])
  | .setFillColor c => ({ b with fillPaint := some c }, [])
  | .setStrokeColor c => ({ b with strokePaint := some c }, [])
  | .setLineWidth w => ({ b with width := some w }, [])
  | .fill => (b, [.fill b.fillPaint b.winding])
  | .stroke => (b, [.stroke b.strokePaint b.width])
  | .fillStroke => (b, [.fill b.fillPaint b.winding, .stroke b.strokePaint b.width])
  | _ => (b, [])

def ggStep (b : Brush (GGPattern F) F) : GGCall F → Brush (GGPattern F) F × List (Painted (GGPattern F) F)
  | .setFillRule w => ({ b with winding := w }, [])
  | .setFillStyle p => ({ b with fillPaint := some p }, [])
  | .setColor c => ({ b with fillPaint := some (.solid c), strokePaint := some (.solid c) }, [])
  | .setLineWidth w => ({ b with width := some w }, [])
  | .fill => (b, [.fill b.fillPaint b.winding])
  | .fillPreserve => (b, [.fill b.fillPaint b.winding])
  | .stroke => (b, [.stroke b.strokePaint b.width])
  | _ => (b, [])

/-- The width is in 1/64 px here. -/
def rxStep (b : Brush (RxPaint F) Int) : Bool × RxCall F → Brush (RxPaint F) Int × List (Painted (RxPaint F) Int)
  | (true, .setWinding w) => ({ b with winding := w }, [])
  | (true, .setColor p) => ({ b with fillPaint := some p }, [])
  | (false, .setColor p) => ({ b with strokePaint := some p }, [])
  | (false, .setStroke w _ _ _ _ _) => ({ b with width := some w }, [])
  | (true, .draw) => (b, [.fill b.fillPaint b.winding])
  | (false, .draw) => (b, [.stroke b.strokePaint b.width])
  | _ => (b, [])

/-- The paintings of a list of calls. -/
def painted {C P W : Type} (step : Brush P W → C → Brush P W × List (Painted P W)) : Brush P W → List C → List (Painted P W)
  | _, [] => []
  | b, c :: cs => (step b c).2 ++ painted step (step b c).1 cs

/-- What should be painted for a style with plain colours: the fill with the fill colour and the fill rule, the stroke with the line
colour and the line width. -/
def wanted {P W : Type} (paint : Color → F → P) (width : F → W) (st : PathStyle F) (opacity : F) : List (Painted P W) :=
  (match st.fillerColor with
    | some (.plain c) => [.fill (some (paint c (st.fillOpacity *. opacity))) st.useNonZeroWinding]
    | _ => []) ++
  (match st.linerColor with
    | some (.plain c) => [.stroke (some (paint c (st.lineOpacity *. opacity))) (some (width st.lineWidth))]
    | _ => [])

/-- Both paints are plain colours or none. -/
def PlainPaints (st : PathStyle F) : Prop := (∀ g, st.fillerColor ≠ some (.gradient g)) ∧ ∀ g, st.linerColor ≠ some (.gradient g)

end GoSvg.Spec
