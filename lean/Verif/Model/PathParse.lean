import Verif.Model.Shapes

/-! parse_path.go: path data. -/

namespace GoSvg

variable {F : Type} [GoFloat F] [GoEnv]

/-- Programs over the path cursor. -/
abbrev PM (F α : Type) := SM (PathCursor F) α

open SM (get modify throw lift panic diverge forEach)

namespace PathCursor

/-- path.go:82-106: `Start`, `Line`, `QuadBezier`, `CubeBezier`, `Stop(true)` append one operation. -/
def addOps (c : PathCursor F) (ops : Path) : PathCursor F := { c with path := c.path ++ ops }

/-- parse_path.go:45-52 -/
def init (c : PathCursor F) : PathCursor F :=
  { c with placeX := num 0, placeY := num 0, points := [], lastKey := ' ', path := [], inPath := false }

end PathCursor

/-- parse_path.go:121-125, 129-133: parse one number and append it to `points`. -/
def pushFloat (s : Str) : PM F Unit := do
  let f ← lift (parseBasicFloat s)
  modify fun c => { c with points := c.points ++ [f] }

/-- parse_path.go:115-133: `acc` is `numStr[last:i]`, `isFirst` as in the code. -/
def readFloatGo : Str → Bool → Str → PM F Unit
  | acc, _, [] => pushFloat acc
  | acc, isFirst, n :: ns =>
    if n = '.' then
      if isFirst then readFloatGo (acc ++ [n]) false ns
      else do
        pushFloat acc
        readFloatGo [n] false ns
    else readFloatGo (acc ++ [n]) isFirst ns

/-- parse_path.go:111-135 -/
def readFloat (numStr : Str) : PM F Unit := readFloatGo [] true numStr

/-- parse_path.go:144: the character ends a number -/
def endsNumber (lr r : Char) : Bool :=
  !GoEnv.isNumber r && r != '.' && !(r == '-' && lr == 'e') && r != 'e'

/-- parse_path.go:143-164: `cur` is `dataPoints[lastIndex:i]`, `none` for `lastIndex = -1`; `lr` is the previous
character. -/
def getPointsGo : Option Str → Char → Str → PM F Unit
  | cur, _, [] => match cur with
    | none => pure ()
    | some s => readFloat s
  | cur, lr, r :: rs =>
    if endsNumber lr r then do
      match cur with
      | none => pure ()
      | some s => readFloat s
      if r = '-' then getPointsGo (some [r]) r rs else getPointsGo none r rs
    else match cur with
      | none => getPointsGo (some [r]) r rs
      | some s => getPointsGo (some (s ++ [r])) r rs

/-- parse_path.go:137-166 -/
def getPoints (dataPoints : Str) : PM F Unit := do
  modify fun c => { c with points := [] }
  getPointsGo none ' ' dataPoints

/-- parse_path.go:81-86 -/
def valsToAbs : F → List F → List F
  | _, [] => []
  | last, p :: ps => (last +. p) :: valsToAbs (last +. p) ps

/-- parse_path.go:88-99 `pointsToAbs`: `i` is the position within the current set of `sz` numbers, `lastX`, `lastY` the
point added, `ax`, `ay` the last x and y computed in this set. The nested loops of the code visit the same positions in
the same order when the number of points is a multiple of `sz`, which `hasSetsOrMore` has checked. -/
def pointsToAbs (sz : Nat) : Nat → F → F → F → F → List F → List F
  | _, _, _, _, _, [] => []
  | i, lastX, lastY, ax, ay, p :: ps =>
    let v := if i % 2 = 0 then p +. lastX else p +. lastY
    let (ax, ay) := if i % 2 = 0 then (v, ay) else (ax, v)
    if i + 1 = sz then v :: pointsToAbs sz 0 ax ay ax ay ps
    else v :: pointsToAbs sz (i + 1) lastX lastY ax ay ps

/-- parse_path.go:101-109: whether the number of points fits; makes them absolute if asked to. -/
def hasSetsOrMore (sz : Nat) (rel : Bool) : PM F Bool := do
  let c ← get
  if !(decide (sz ≤ c.points.length) && c.points.length % sz == 0) then pure false
  else
    if rel then
      modify fun c => { c with points := pointsToAbs sz 0 c.placeX c.placeY c.placeX c.placeY c.points }
    pure true

/-- parse_path.go:77-79 -/
def reflect (px py rx ry : F) : F × F := (px *. num 2 -. rx, py *. num 2 -. ry)

/-- parse_path.go:168-175 -/
def reflectControlQuad (c : PathCursor F) : PathCursor F :=
  if c.lastKey ∈ ['q', 'Q', 'T', 't'] then
    let (x, y) := reflect c.placeX c.placeY c.cntlPtX c.cntlPtY
    { c with cntlPtX := x, cntlPtY := y }
  else { c with cntlPtX := c.placeX, cntlPtY := c.placeY }

/-- parse_path.go:177-184 -/
def reflectControlCube (c : PathCursor F) : PathCursor F :=
  if c.lastKey ∈ ['c', 'C', 's', 'S'] then
    let (x, y) := reflect c.placeX c.placeY c.cntlPtX c.cntlPtY
    { c with cntlPtX := x, cntlPtY := y }
  else { c with cntlPtX := c.placeX, cntlPtY := c.placeY }

namespace PathCursor

/-- `fixed.Point26_6{X: fixed.Int26_6((x + c.curX) * 64), Y: fixed.Int26_6((y + c.curY) * 64)}` -/
def fixPt (c : PathCursor F) (x y : F) : Pt := toFixedP (x +. c.curX) (y +. c.curY)

end PathCursor

/-- parse_path.go:219-224, 234-239: one line per pair of coordinates -/
def lineOps (c : PathCursor F) : List F → Path
  | x :: y :: ps => .lineTo (c.fixPt x y) :: lineOps c ps
  | _ => []

/-- parse_path.go:277-287 -/
def quadOps (c : PathCursor F) : List F → Path
  | x1 :: y1 :: x :: y :: ps => .quadTo (c.fixPt x1 y1) (c.fixPt x y) :: quadOps c ps
  | _ => []

/-- parse_path.go:320-334 -/
def cubicOps (c : PathCursor F) : List F → Path
  | x1 :: y1 :: x2 :: y2 :: x :: y :: ps =>
    .cubicTo (c.fixPt x1 y1) (c.fixPt x2 y2) (c.fixPt x y) :: cubicOps c ps
  | _ => []

/-- parse_path.go:298-312 -/
def smoothQuadLoop (k : Char) : PathCursor F → List F → PathCursor F
  | c, x :: y :: ps =>
    let c := reflectControlQuad c
    let c := c.addOps [.quadTo (c.fixPt c.cntlPtX c.cntlPtY) (c.fixPt x y)]
    smoothQuadLoop k { c with lastKey := k, placeX := x, placeY := y } ps
  | c, _ => c

/-- parse_path.go:345-360 -/
def smoothCubeLoop (k : Char) : PathCursor F → List F → PathCursor F
  | c, x2 :: y2 :: x :: y :: ps =>
    let c := reflectControlCube c
    let c := c.addOps [.cubicTo (c.fixPt c.cntlPtX c.cntlPtY) (c.fixPt x2 y2) (c.fixPt x y)]
    smoothCubeLoop k { c with lastKey := k, cntlPtX := x2, cntlPtY := y2, placeX := x, placeY := y } ps
  | c, _ => c

/-- `points[i]` where the index is known to be in range -/
def at_ (ps : List F) (i : Nat) : F := ps.getD i (num 0)

/-- parse_path.go:399-404 `addArcFromA(c.points[i:])`: the centre is computed from the slice at `i` (whose radii it may
change), but the arc is drawn from the beginning of `c.points`. -/
def addArcFromA (i : Nat) (c : PathCursor F) : PathCursor F :=
  let ps := c.points
  let ctr := findEllipseCenter (at_ ps i) (at_ ps (i + 1)) (at_ ps (i + 2) *. GoFloat.piMul 1 /. num 180)
    c.placeX c.placeY (at_ ps (i + 5)) (at_ ps (i + 6))
    (GoFloat.eq (at_ ps (i + 4)) (num 0)) (GoFloat.eq (at_ ps (i + 3)) (num 0))
  let ps := (ps.set i ctr.ra).set (i + 1) ctr.rb
  let args : ArcArgs F := ⟨at_ ps 0, at_ ps 1, at_ ps 2, at_ ps 3, at_ ps 4, at_ ps 5, at_ ps 6⟩
  let (ops, x, y) := addArc args (ctr.cx +. c.curX) (ctr.cy +. c.curY) (c.placeX +. c.curX) (c.placeY +. c.curY)
  { c with points := ps, path := c.path ++ ops, placeX := x, placeY := y }

/-- parse_path.go:365-371: `n` sets of seven numbers remain, the next one starts at `i`. -/
def arcLoop (k : Char) : Nat → Nat → PathCursor F → PathCursor F
  | 0, _, c => c
  | n + 1, i, c =>
    let c := if k = 'a' then
        { c with
          points := (c.points.set (i + 5) (at_ c.points (i + 5) +. c.placeX)).set (i + 6)
            (at_ c.points (i + 6) +. c.placeY) }
      else c
    arcLoop k n (i + 7) (addArcFromA i c)

/-- `c.points[l-1]`, `c.points[l-2]`, ...: the `j`-th number from the end, for a list long enough -/
def fromEnd (ps : List F) (j : Nat) : F := at_ ps (ps.length - j)

/-- parse_path.go:196-379: the switch on the command letter. -/
def segSwitch (k : Char) : PM F Unit := do
  match k with
  | 'z' | 'Z' =>
    let c ← get
    if c.points.length ≠ 0 then throw .paramMismatch
    if c.inPath then
      modify fun c => { c.addOps [.close] with placeX := c.pathStartX, placeY := c.pathStartY, inPath := false }
  | 'm' | 'M' =>
    if !(← hasSetsOrMore 2 (k == 'm')) then throw .paramMismatch
    modify fun c =>
      let sx := at_ c.points 0
      let sy := at_ c.points 1
      let c := { c with pathStartX := sx, pathStartY := sy, inPath := true }
      let c := c.addOps (.moveTo (c.fixPt sx sy) :: lineOps c (c.points.drop 2))
      { c with placeX := fromEnd c.points 2, placeY := fromEnd c.points 1 }
  | 'l' | 'L' =>
    if !(← hasSetsOrMore 2 (k == 'l')) then throw .paramMismatch
    modify fun c =>
      let c := c.addOps (lineOps c c.points)
      { c with placeX := fromEnd c.points 2, placeY := fromEnd c.points 1 }
  | 'v' | 'V' =>
    if k = 'v' then modify fun c => { c with points := valsToAbs c.placeY c.points }
    if !(← hasSetsOrMore 1 false) then throw .paramMismatch
    modify fun c =>
      let c := c.addOps (c.points.map fun p => .lineTo (c.fixPt c.placeX p))
      { c with placeY := fromEnd c.points 1 }
  | 'h' | 'H' =>
    if k = 'h' then modify fun c => { c with points := valsToAbs c.placeX c.points }
    if !(← hasSetsOrMore 1 false) then throw .paramMismatch
    modify fun c =>
      let c := c.addOps (c.points.map fun p => .lineTo (c.fixPt p c.placeY))
      { c with placeX := fromEnd c.points 1 }
  | 'q' | 'Q' =>
    if !(← hasSetsOrMore 4 (k == 'q')) then throw .paramMismatch
    modify fun c =>
      let c := c.addOps (quadOps c c.points)
      { c with
        cntlPtX := fromEnd c.points 4, cntlPtY := fromEnd c.points 3
        placeX := fromEnd c.points 2, placeY := fromEnd c.points 1 }
  | 't' | 'T' =>
    if !(← hasSetsOrMore 2 (k == 't')) then throw .paramMismatch
    modify fun c => smoothQuadLoop k c c.points
  | 'c' | 'C' =>
    if !(← hasSetsOrMore 6 (k == 'c')) then throw .paramMismatch
    modify fun c =>
      let c := c.addOps (cubicOps c c.points)
      { c with
        cntlPtX := fromEnd c.points 4, cntlPtY := fromEnd c.points 3
        placeX := fromEnd c.points 2, placeY := fromEnd c.points 1 }
  | 's' | 'S' =>
    if !(← hasSetsOrMore 4 (k == 's')) then throw .paramMismatch
    modify fun c => smoothCubeLoop k c c.points
  | 'a' | 'A' =>
    if !(← hasSetsOrMore 7 false) then throw .paramMismatch
    modify fun c => arcLoop k (c.points.length / 7) 0 c
  | _ =>
    let c ← get
    if c.errorMode = ErrorMode.strict then throw .commandUnknown
    if c.errorMode = ErrorMode.warn then
      modify fun c => { c with log := c.log ++ [.ignoringCommand k] }

/-- parse_path.go:186-383. For a non-ASCII letter Go takes the first byte as the command (never a known one) and the
remaining bytes of the letter as data, where they separate numbers; the model takes the whole letter. -/
def addSeg (segString : Str) : PM F Unit :=
  match segString with
  | [] => pure ()   -- never: a segment starts at a letter
  | k :: rest => do
    getPoints rest
    segSwitch k
    modify fun c => { c with lastKey := k }

/-- parse_path.go:60 -/
def startsSeg (v : Char) : Bool := GoEnv.isLetter v && v != 'e'

/-- parse_path.go:58-74: `cur` is `svgPath[lastIndex:i]`, `none` for `lastIndex = -1`. -/
def compileGo : Option Str → Str → PM F Unit
  | cur, [] => match cur with
    | none => pure ()
    | some seg => addSeg seg
  | cur, v :: vs =>
    if startsSeg v then do
      match cur with
      | none => pure ()
      | some seg => addSeg seg
      compileGo (some [v]) vs
    else compileGo (cur.map (· ++ [v])) vs

/-- parse_path.go:54-75 -/
def compilePath (svgPath : Str) : PM F Unit := do
  modify PathCursor.init
  compileGo none svgPath

/-- parse_path.go:385-397 -/
def ellipseAt (cx cy rx ry : F) (c : PathCursor F) : PathCursor F :=
  let px := cx +. rx
  let py := cy
  let (ops, x, y) := addArc ⟨rx, ry, num 0, num 1, num 0, px, py⟩ cx cy px py
  { c with
    points := [rx, ry, num 0, num 1, num 0, px, py]
    path := c.path ++ (.moveTo (toFixedP px py) :: ops) ++ [.close]
    placeX := x, placeY := y }

end GoSvg
