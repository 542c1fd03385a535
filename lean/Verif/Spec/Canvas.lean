import Verif.Spec.Drawing

/-! Specification: what the paintings of a drawing backend cover.

A backend keeps the pen movements made so far; a fill or a stroke covers the outline they make. The semantics of the calls below is that of the
backends (trusted): draw2d's `BeginPath` and the `Clear` of rasterx forget the movements, and so do the fills and strokes of draw2d and gg, but
not gg's `FillPreserve`; gg's `NewSubPath` forgets nothing but the current point; rasterx paints the
subpaths that are stopped. -/

namespace GoSvg.Spec

variable {F : Type} [GoFloat F]

/-- The paintings of a list of calls, each with what it covers. `trail` is what a call does to the movements made so far, `outline` those that are
painted by a call. -/
def pictured {C P W σ E : Type} (step : Brush P W → C → Brush P W × List (Painted P W)) (trail : σ → C → σ) (outline : σ → C → E) :
    Brush P W → σ → List C → List (E × Painted P W)
  | _, _, [] => []
  | b, t, c :: cs => (step b c).2.map (fun x => (outline t c, x)) ++ pictured step trail outline (step b c).1 (trail t c) cs

def d2Trail (t : List (Event F)) : D2Call F → List (Event F)
  | .beginPath => []
  | .fill => []
  | .stroke => []
  | .fillStroke => []
  | c => t ++ d2Events c

/-- The movements, and whether there is a current point: `NewSubPath` and the painting calls take it away. Nothing is closed without one, and a line
or a curve without one begins with a move to its first point. -/
def ggTrail (t : List (Event F) × Bool) : GGCall F → List (Event F) × Bool
  | .closePath => if t.2 then (t.1 ++ [.close], true) else t
  | .newSubPath => (t.1, false)
  | .moveTo x y => (t.1 ++ [.move x y], true)
  | .lineTo x y => (t.1 ++ [if t.2 then .line x y else .move x y], true)
  | .quadraticTo x1 y1 x y => (t.1 ++ (if t.2 then [] else [.move x1 y1]) ++ [.quad x1 y1 x y], true)
  | .cubicTo x1 y1 x2 y2 x y => (t.1 ++ (if t.2 then [] else [.move x1 y1]) ++ [.cubic x1 y1 x2 y2 x y], true)
  | .fill => ([], false)
  | .stroke => ([], false)
  | _ => t

/-- The movements of the subpaths that are stopped, and those of a subpath that is not. What is not stopped is not painted, and is lost when another
subpath is started. -/
def rxMade (t : List (Event F) × List (Event F)) : RxCall F → List (Event F) × List (Event F)
  | .clear => ([], [])
  | .start p => (t.1, [.move (px p.x) (px p.y)])
  | .stop closed => (t.1 ++ t.2 ++ (if closed then [.close] else []), [])
  | c => (t.1, t.2 ++ rxEvents c)

/-- The movements of the filler and those of the stroker. -/
def rxTrail (t : (List (Event F) × List (Event F)) × (List (Event F) × List (Event F))) (c : Bool × RxCall F) :
    (List (Event F) × List (Event F)) × (List (Event F) × List (Event F)) :=
  if c.1 then (rxMade t.1 c.2, t.2) else (t.1, rxMade t.2 c.2)

def rxOutline (t : (List (Event F) × List (Event F)) × (List (Event F) × List (Event F))) (c : Bool × RxCall F) : List (Event F) :=
  if c.1 then t.1.1 else t.2.1

/-- The pictures that the three backends make of their calls, beginning with the brush `b` and the movements `t` (for gg: and no current point). -/
def d2Picture (b : Brush Color F) (t : List (Event F)) (cs : List (D2Call F)) : List (List (Event F) × Painted Color F) :=
  pictured d2Step d2Trail (fun t _ => t) b t cs

def ggPicture (b : Brush (GGPattern F) F) (t : List (Event F)) (cs : List (GGCall F)) : List (List (Event F) × Painted (GGPattern F) F) :=
  pictured ggStep ggTrail (fun t _ => t.1) b (t, false) cs

def rxPicture (b : Brush (RxPaint F) Int) (t : (List (Event F) × List (Event F)) × (List (Event F) × List (Event F))) (cs : RxTrace F) :
    List (List (Event F) × Painted (RxPaint F) Int) :=
  pictured rxStep rxTrail rxOutline b t cs

/-- A fill or a stroke -/
def Painted.kind {P W : Type} : Painted P W → Event F
  | .fill .. => .fill
  | .stroke .. => .stroke

/-- What is covered, and by which kind of painting -/
def covered {P W : Type} (l : List (List (Event F) × Painted P W)) : List (List (Event F) × Event F) := l.map fun x => (x.1, x.2.kind)

/-- The outline of a path under a matrix -/
def outlineUnder (m : Matrix2D F) (path : Path) : List (Event F) := path.map (penOf m.tFixed)

def Op.isMove : Op → Bool
  | .moveTo _ => true
  | _ => false

/-- From the last move on. -/
def lastSubpath : Path → Path
  | [] => []
  | op :: ops => if ops.any Op.isMove then lastSubpath ops else op :: ops

/-- The path begins with a move. -/
def Begun (path : Path) : Prop := ∃ a r, path = .moveTo a :: r

/-- The path is a single subpath. -/
def Single (path : Path) : Prop := ∃ a r, path = .moveTo a :: r ∧ ∀ op ∈ r, ∀ q, op ≠ .moveTo q

/-- Every subpath that another one follows is closed. -/
def ClosedBefore (path : Path) : Prop := ∀ a op q b, path = a ++ op :: .moveTo q :: b → op = .close

/-- Without the closes: what matters for a fill, for which all subpaths are closed. -/
def area (o : List (Event F)) : List (Event F) := o.filter fun e => match e with
  | .close => false
  | _ => true

/-- Without the closes that come after a close and do nothing; `closed`: a close came before. -/
def squeezeFrom : Bool → List (Event F) → List (Event F)
  | _, [] => []
  | true, .close :: o => squeezeFrom true o
  | false, .close :: o => .close :: squeezeFrom true o
  | _, e :: o => e :: squeezeFrom false o

/-- What matters for a stroke -/
def squeeze (o : List (Event F)) : List (Event F) := squeezeFrom false o

/-- What can be seen of an outline that is filled or stroked -/
def visible (x : List (Event F) × Event F) : List (Event F) × Event F :=
  match x.2 with
  | .fill => (area x.1, .fill)
  | k => (squeeze x.1, k)

end GoSvg.Spec
