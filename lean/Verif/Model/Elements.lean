import Verif.Model.Style

/-! svg_elements.go: one function per supported element. -/

namespace GoSvg

variable {F : Type} [GoFloat F] [GoEnv]

open SM (get modify throw lift panic diverge forEach)

/-- `for _, attr := range attrs { ...; if err != nil { return err } }` with local variables `β` -/
def attrLoop {β : Type} (step : β → Attr → CM F β) : β → List Attr → CM F β
  | b, [] => pure b
  | b, a :: as => do
    let b' ← step b a
    attrLoop step b' as

/-- svg_elements.go:47-55 and 63-65: the view box of an svg element; the number of points is checked before the error. -/
def svgBox (wh : F × F) (value : Str) : CM F (F × F) := fun c =>
  let (r, pc) := getPoints value c.pc
  let c := { c with pc := pc }
  match pc.points with
  | [x, y, w, h] =>
    let c := { c with svg := { c.svg with viewBox := ⟨x, y, w, h⟩ } }
    match r with
    | .ok () => (.ok wh, c)
    | .err e => (.err e, c)
    | .panic s => (.panic s, c)
    | .diverge => (.diverge, c)
  | _ => (.err .paramMismatch, c)

/-- svg_elements.go:45-66: one attribute of an svg element; the locals are width and height. -/
def svgAttr (wh : F × F) (attr : Attr) : CM F (F × F) := do
  if attr.name = "viewBox".toList then svgBox wh attr.value
  else if attr.name = "width".toList then
    modify fun c => { c with svg := { c.svg with width := attr.value } }
    let w ← lift (parseBasicFloat attr.value)
    pure (w, wh.2)
  else if attr.name = "height".toList then
    modify fun c => { c with svg := { c.svg with height := attr.value } }
    let h ← lift (parseBasicFloat attr.value)
    pure (wh.1, h)
  else pure wh

/-- svg_elements.go:38-74 -/
def svgF (attrs : List Attr) : CM F Unit := do
  modify fun c => { c with svg := { c.svg with viewBox := ⟨num 0, num 0, num 0, num 0⟩ } }
  let wh ← attrLoop svgAttr (num 0, num 0) attrs
  modify fun c =>
    let vb := c.svg.viewBox
    let vb := if GoFloat.eq vb.w (num 0) then { vb with w := wh.1 } else vb
    let vb := if GoFloat.eq vb.h (num 0) then { vb with h := wh.2 } else vb
    { c with svg := { c.svg with viewBox := vb } }

/-- svg_elements.go:75 -/
def gF (_attrs : List Attr) : CM F Unit := pure ()

/-- Local variables of `rectF`, svg_elements.go:77 -/
structure RectVars (F : Type) where
  x : F
  y : F
  w : F
  h : F
  rx : F
  ry : F

/-- svg_elements.go:79-97 -/
def rectAttr (vb : Bounds F) (v : RectVars F) (attr : Attr) : Res (RectVars F) :=
  if attr.name = "x".toList then do .ok { v with x := ← resolveUnit vb attr.value .width }
  else if attr.name = "y".toList then do .ok { v with y := ← resolveUnit vb attr.value .height }
  else if attr.name = "width".toList then do .ok { v with w := ← resolveUnit vb attr.value .width }
  else if attr.name = "height".toList then do .ok { v with h := ← resolveUnit vb attr.value .height }
  else if attr.name = "rx".toList then do .ok { v with rx := ← resolveUnit vb attr.value .width }
  else if attr.name = "ry".toList then do .ok { v with ry := ← resolveUnit vb attr.value .height }
  else .ok v

/-- svg_elements.go:98-109: the operations drawn for given values; `none` when a loop in `addArc` runs out of fuel. -/
def rectOps (fuel : Nat) (curX curY : F) (v : RectVars F) : Option Path :=
  if GoFloat.eq v.w (num 0) || GoFloat.eq v.h (num 0) then some []
  else
    let ry := if !GoFloat.eq v.rx (num 0) && GoFloat.eq v.ry (num 0) then v.rx else v.ry
    let rx := if !GoFloat.eq ry (num 0) && GoFloat.eq v.rx (num 0) then ry else v.rx
    addRoundRect fuel (v.x +. curX) (v.y +. curY) (v.w +. v.x +. curX) (v.h +. v.y +. curY) rx ry (num 0)

/-- svg_elements.go:76-110 -/
def rectF (fuel : Nat) (attrs : List Attr) : CM F Unit := do
  let c ← get
  let v ← lift (Res.loop (rectAttr c.svg.viewBox) ⟨num 0, num 0, num 0, num 0, num 0, num 0⟩ attrs)
  match rectOps fuel c.pc.curX c.pc.curY v with
  | none => diverge
  | some ops => modify fun c => { c with pc := c.pc.addOps ops }

/-- Local variables of `maskF`, svg_elements.go:113-114 -/
structure MaskVars (F : Type) where
  id : Str
  x : F
  y : F
  w : F
  h : F

/-- svg_elements.go:116-135 -/
def maskAttr (vb : Bounds F) (v : MaskVars F) (attr : Attr) : Res (MaskVars F) :=
  if attr.name = "id".toList then
    if attr.value = [] then .err .zeroLengthID else .ok { v with id := attr.value }
  else if attr.name = "x".toList then do .ok { v with x := ← resolveUnit vb attr.value .width }
  else if attr.name = "y".toList then do .ok { v with y := ← resolveUnit vb attr.value .height }
  else if attr.name = "width".toList then do .ok { v with w := ← resolveUnit vb attr.value .width }
  else if attr.name = "height".toList then do .ok { v with h := ← resolveUnit vb attr.value .height }
  else .ok v

/-- svg_elements.go:112-148 -/
def maskF (attrs : List Attr) : CM F Unit := do
  let c ← get
  let v ← lift (Res.loop (maskAttr c.svg.viewBox) ⟨[], num 0, num 0, num 0, num 0⟩ attrs)
  modify fun c =>
    { c with inMask := true, mask := some ⟨v.id, v.x, v.y, v.w, v.h, [], Matrix2D.identity⟩ }

/-- Local variables of `circleF`, svg_elements.go:151 -/
structure CircleVars (F : Type) where
  cx : F
  cy : F
  rx : F
  ry : F

/-- svg_elements.go:153-170 -/
def circleAttr (vb : Bounds F) (v : CircleVars F) (attr : Attr) : Res (CircleVars F) :=
  if attr.name = "cx".toList then do .ok { v with cx := ← resolveUnit vb attr.value .width }
  else if attr.name = "cy".toList then do .ok { v with cy := ← resolveUnit vb attr.value .height }
  else if attr.name = "r".toList then do
    let r ← resolveUnit vb attr.value .diag
    .ok { v with rx := r, ry := r }
  else if attr.name = "rx".toList then do .ok { v with rx := ← resolveUnit vb attr.value .width }
  else if attr.name = "ry".toList then do .ok { v with ry := ← resolveUnit vb attr.value .height }
  else .ok v

/-- svg_elements.go:150-176 -/
def circleF (attrs : List Attr) : CM F Unit := do
  let c ← get
  let v ← lift (Res.loop (circleAttr c.svg.viewBox) ⟨num 0, num 0, num 0, num 0⟩ attrs)
  if GoFloat.eq v.rx (num 0) || GoFloat.eq v.ry (num 0) then pure ()
  else modify fun c =>
    { c with pc := ellipseAt (v.cx +. c.pc.curX) (v.cy +. c.pc.curY) v.rx v.ry c.pc }

/-- Local variables of `lineF`, svg_elements.go:179 -/
structure LineVars (F : Type) where
  x1 : F
  x2 : F
  y1 : F
  y2 : F

/-- svg_elements.go:181-195 -/
def lineAttr (vb : Bounds F) (v : LineVars F) (attr : Attr) : Res (LineVars F) :=
  if attr.name = "x1".toList then do .ok { v with x1 := ← resolveUnit vb attr.value .width }
  else if attr.name = "x2".toList then do .ok { v with x2 := ← resolveUnit vb attr.value .width }
  else if attr.name = "y1".toList then do .ok { v with y1 := ← resolveUnit vb attr.value .height }
  else if attr.name = "y2".toList then do .ok { v with y2 := ← resolveUnit vb attr.value .height }
  else .ok v

/-- svg_elements.go:178-205 -/
def lineF (attrs : List Attr) : CM F Unit := do
  let c ← get
  let v ← lift (Res.loop (lineAttr c.svg.viewBox) ⟨num 0, num 0, num 0, num 0⟩ attrs)
  modify fun c =>
    { c with pc := c.pc.addOps [.moveTo (c.pc.fixPt v.x1 v.y1), .lineTo (c.pc.fixPt v.x2 v.y2)] }

/-- svg_elements.go:209-220: one attribute of a polyline. The parity is checked before the error. -/
def polyAttr (_ : Unit) (attr : Attr) : CM F Unit :=
  if attr.name = "points".toList then
    fun c =>
      let (r, pc) := getPoints attr.value c.pc
      let c := { c with pc := pc }
      if pc.points.length % 2 ≠ 0 then (.err .oddPoints, c) else (r, c)
  else pure ()

/-- svg_elements.go:221-232 -/
def polyDraw (pc : PathCursor F) : PathCursor F :=
  if pc.points.length > 4 then
    pc.addOps (.moveTo (pc.fixPt (at_ pc.points 0) (at_ pc.points 1)) :: lineOps pc (pc.points.drop 2))
  else pc

/-- svg_elements.go:207-234. Without a `points` attribute the numbers left by an earlier element are used. -/
def polylineF (attrs : List Attr) : CM F Unit := do
  attrLoop polyAttr () attrs
  modify fun c => { c with pc := polyDraw c.pc }

/-- svg_elements.go:236-242: the close is added even after an error. -/
def polygonF (attrs : List Attr) : CM F Unit := fun c =>
  let (r, c) := polylineF attrs c
  match r with
  | .panic s => (.panic s, c)
  | .diverge => (.diverge, c)
  | r => (r, if c.pc.points.length > 4 then { c with pc := c.pc.addOps [.close] } else c)

/-- svg_elements.go:246-254 -/
def pathAttr (_ : Unit) (attr : Attr) : CM F Unit :=
  if attr.name = "d".toList then onPath (compilePath attr.value) else pure ()

/-- svg_elements.go:244-256 -/
def pathF (attrs : List Attr) : CM F Unit := attrLoop pathAttr () attrs

/-- svg_elements.go:258-262 -/
def descF (_attrs : List Attr) : CM F Unit :=
  modify fun c => { c with inDescText := true, svg := { c.svg with descriptions := c.svg.descriptions ++ [[]] } }

/-- svg_elements.go:264-268 -/
def titleF (_attrs : List Attr) : CM F Unit :=
  modify fun c => { c with inTitleText := true, svg := { c.svg with titles := c.svg.titles ++ [[]] } }

/-- svg_elements.go:270-273 -/
def defsF (_attrs : List Attr) : CM F Unit := modify fun c => { c with inDefs := true }

/-- svg_elements.go:276-277, 282 and 334-335: `c.inGrad = true` and a new gradient. -/
def newGrad : CM F Unit := modify fun c =>
  let g : Gradient F := ⟨none, [], c.svg.viewBox, Matrix2D.identity, .pad, .objectBoundingBox⟩
  { c with inGrad := true, grad := some c.svg.gradHeap.length,
           svg := { c.svg with gradHeap := c.svg.gradHeap ++ [g] } }

/-- Changes the gradient `c.grad` points to. -/
def modifyGrad (f : Gradient F → Gradient F) : CM F Unit := fun c =>
  match c.grad with
  | none => (.panic .nilGrad, c)
  | some addr => (.ok (), { c with svg := { c.svg with gradHeap := c.svg.gradHeap.modify addr f } })

/-- svg_elements.go:286-288: `len(id) >= 0` always holds. -/
def setGradID (id : Str) : CM F Unit := fun c =>
  match c.grad with
  | none => (.panic .nilGrad, c)   -- cannot happen: `newGrad` came before
  | some addr => (.ok (), { c with svg := { c.svg with grads := c.svg.grads.insert id addr } })

/-- patterns.go:273-296. (Go stores the matrix even when parsing the transform fails; the parse then ends and gradients
are not exported.) -/
def readGradAttr (attr : Attr) : CM F Unit := do
  if attr.name = "gradientTransform".toList then
    let m ← parseTransform attr.value
    modifyGrad fun g => { g with matrix := m }
  else if attr.name = "gradientUnits".toList then
    let v := trimSpace attr.value
    if v = "userSpaceOnUse".toList then modifyGrad fun g => { g with units := .userSpaceOnUse }
    else if v = "objectBoundingBox".toList then modifyGrad fun g => { g with units := .objectBoundingBox }
    else pure ()
  else if attr.name = "spreadMethod".toList then
    let v := trimSpace attr.value
    if v = "pad".toList then modifyGrad fun g => { g with spread := .pad }
    else if v = "reflect".toList then modifyGrad fun g => { g with spread := .reflect }
    else if v = "repeat".toList then modifyGrad fun g => { g with spread := .repeat }
    else pure ()
  else pure ()

/-- `directionStrings` of a linear gradient, svg_elements.go:281 -/
structure LinStrs where
  x1 : Str
  y1 : Str
  x2 : Str
  y2 : Str

/-- svg_elements.go:283-306 -/
def linAttr (d : LinStrs) (attr : Attr) : CM F LinStrs := do
  if attr.name = "id".toList then
    setGradID attr.value
    pure d
  else if attr.name = "x1".toList then pure { d with x1 := attr.value }
  else if attr.name = "y1".toList then pure { d with y1 := attr.value }
  else if attr.name = "x2".toList then pure { d with x2 := attr.value }
  else if attr.name = "y2".toList then pure { d with y2 := attr.value }
  else
    readGradAttr attr
    pure d

/-- svg_elements.go:307-311 and 377-380: the box percentages refer to. -/
def gradBox (g : Gradient F) : Bounds F :=
  match g.units with
  | .userSpaceOnUse => g.bounds
  | .objectBoundingBox => ⟨num 0, num 0, num 1, num 1⟩

/-- The gradient `c.grad` points to. -/
def currentGrad : CM F (Gradient F) := fun c =>
  match c.grad.bind fun addr => c.svg.gradHeap[addr]? with
  | none => (.panic .nilGrad, c)
  | some g => (.ok g, c)

/-- svg_elements.go:275-331 -/
def linearGradientF (attrs : List Attr) : CM F Unit := do
  newGrad
  let d ← attrLoop linAttr ⟨"0%".toList, "0%".toList, "100%".toList, "0".toList⟩ attrs
  let g ← currentGrad
  let bbox := gradBox g
  let x1 ← lift (resolveUnit bbox d.x1 .width)
  let y1 ← lift (resolveUnit bbox d.y1 .height)
  let x2 ← lift (resolveUnit bbox d.x2 .width)
  let y2 ← lift (resolveUnit bbox d.y2 .height)
  modifyGrad fun g => { g with direction := some (.linear x1 y1 x2 y2) }

/-- Local variables of `radialGradientF`, svg_elements.go:336-338 -/
structure RadStrs where
  setFx : Bool
  setFy : Bool
  cx : Str
  cy : Str
  fx : Str
  fy : Str
  r : Str
  fr : Str

/-- svg_elements.go:339-368 -/
def radAttr (d : RadStrs) (attr : Attr) : CM F RadStrs := do
  if attr.name = "id".toList then
    setGradID attr.value
    pure d
  else if attr.name = "cx".toList then pure { d with cx := attr.value }
  else if attr.name = "cy".toList then pure { d with cy := attr.value }
  else if attr.name = "fx".toList then pure { d with setFx := true, fx := attr.value }
  else if attr.name = "fy".toList then pure { d with setFy := true, fy := attr.value }
  else if attr.name = "r".toList then pure { d with r := attr.value }
  else if attr.name = "fr".toList then pure { d with fr := attr.value }
  else
    readGradAttr attr
    pure d

/-- svg_elements.go:338 -/
def fifty : Str := "50%".toList

/-- svg_elements.go:333-409 -/
def radialGradientF (attrs : List Attr) : CM F Unit := do
  newGrad
  let d ← attrLoop radAttr ⟨false, false, fifty, fifty, fifty, fifty, fifty, fifty⟩ attrs
  let fx := if d.setFx then d.fx else d.cx
  let fy := if d.setFy then d.fy else d.cy
  let g ← currentGrad
  let bbox := gradBox g
  let cx ← lift (resolveUnit bbox d.cx .width)
  let cy ← lift (resolveUnit bbox d.cy .height)
  let fx ← lift (resolveUnit bbox fx .width)
  let fy ← lift (resolveUnit bbox fy .height)
  let r ← lift (resolveUnit bbox d.r .diag)
  let fr ← lift (resolveUnit bbox d.fr .diag)
  modifyGrad fun g => { g with direction := some (.radial cx cy fx fy r fr) }

/-- svg_elements.go:421-436 -/
def stopAttr (st : GradStop F) (attr : Attr) : Res (GradStop F) :=
  if attr.name = "offset".toList then do .ok { st with offset := ← readFraction attr.value }
  else if attr.name = "stop-color".toList then do .ok { st with stopColor := ← parseSVGColor attr.value }
  else if attr.name = "stop-opacity".toList then do .ok { st with opacity := ← parseBasicFloat attr.value }
  else .ok st

/-- svg_elements.go:411-440 -/
def stopF (attrs : List Attr) : CM F Unit := do
  let c ← get
  if c.inGrad then
    let attrs := appendStyleAttrs attrs ["stop-color".toList, "stop-opacity".toList]
    let st ← lift (Res.loop stopAttr ⟨none, num 0, num 1⟩ attrs)
    modifyGrad fun g => { g with stops := g.stops ++ [st] }
  else pure ()

/-- svg_elements.go:17-36 and 11-15: the table of element functions, given the one for `use`. -/
def drawFuncs (fuel : Nat) (use : List Attr → CM F Unit) (tag : Str) : Option (List Attr → CM F Unit) :=
  if tag = "svg".toList then some svgF
  else if tag = "g".toList then some gF
  else if tag = "line".toList then some lineF
  else if tag = "stop".toList then some stopF
  else if tag = "rect".toList then some (rectF fuel)
  else if tag = "circle".toList then some circleF
  else if tag = "ellipse".toList then some circleF
  else if tag = "polyline".toList then some polylineF
  else if tag = "polygon".toList then some polygonF
  else if tag = "path".toList then some pathF
  else if tag = "desc".toList then some descF
  else if tag = "defs".toList then some defsF
  else if tag = "title".toList then some titleF
  else if tag = "linearGradient".toList then some linearGradientF
  else if tag = "radialGradient".toList then some radialGradientF
  else if tag = "mask".toList then some maskF
  else if tag = "use".toList then some use
  else none

/-- Local variables of `useF`, svg_elements.go:443-447 -/
structure UseVars (F : Type) where
  href : Str
  x : F
  y : F

/-- svg_elements.go:448-460 -/
def useAttr (vb : Bounds F) (v : UseVars F) (attr : Attr) : Res (UseVars F) :=
  if attr.name = "href".toList then .ok { v with href := attr.value }
  else if attr.name = "x".toList then do .ok { v with x := ← resolveUnit vb attr.value .width }
  else if attr.name = "y".toList then do .ok { v with y := ← resolveUnit vb attr.value .height }
  else .ok v

/-- svg_elements.go:475-496: the loop over the definition's elements. -/
def useLoop (draw : Str → Option (List Attr → CM F Unit)) : List Definition → CM F Unit
  | [] => pure ()
  | d :: ds =>
    if d.tag = "endg".toList then do
      popStyle
      useLoop draw ds
    else do
      pushStyle d.attrs
      match draw d.tag with
      | none => handleError (.cannotProcess d.tag)     -- returns, leaving the pushed style
      | some df =>
        df d.attrs
        if d.tag ≠ "g".toList then popStyle
        useLoop draw ds

/-- svg_elements.go:465-496: what `useF` does between setting and (deferred) resetting the offset. -/
def useBody (draw : Str → Option (List Attr → CM F Unit)) (href : Str) : CM F Unit := do
  if href = [] then throw .useNoHref
  match href with
  | '#' :: id =>
    let c ← get
    match c.svg.defs.find id with
    | none => throw .useNotFound
    | some defs => useLoop draw defs
  | _ => throw .useNotID

/-- svg_elements.go:461-464: run `body` with the offset, and reset the offset to zero on every return (`defer`). -/
def withOffset (x y : F) (body : CM F Unit) : CM F Unit := fun c =>
  match body { c with pc := { c.pc with curX := x, curY := y } } with
  | (r, c) => (r, { c with pc := { c.pc with curX := num 0, curY := num 0 } })

/-- svg_elements.go:442-498. Each nested use consumes one unit of fuel. -/
def useF : Nat → List Attr → CM F Unit
  | 0, _ => diverge
  | fuel + 1, attrs => do
    let c ← get
    let v ← lift (Res.loop (useAttr c.svg.viewBox) ⟨[], num 0, num 0⟩ attrs)
    withOffset v.x v.y (useBody (drawFuncs fuel (useF fuel)) v.href)

end GoSvg
