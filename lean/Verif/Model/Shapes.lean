import Verif.Model.Units

/-! shapes.go: from shapes to path operations. The `matrixAdder` (matrix.go:167-196) is represented by the list of
operations it adds, with every point passed through `tFixed` of its matrix. -/

namespace GoSvg

variable {F : Type} [GoFloat F]

open GoFloat (ofInt toI32 toInt sin cos tan sqrt atan2 neg)

/-- shapes.go:24-29 `toFixedP`; also the literal conversions `fixed.Int26_6(v * 64)` elsewhere. -/
def toFix (v : F) : Int := toI32 (v *. num 64)

/-- shapes.go:24-29 -/
def toFixedP (x y : F) : Pt := ⟨toFix x, toFix y⟩

/-- fixed.Point26_6.Add, Sub, Mul (x/image/math/fixed): int32 arithmetic; `Mul` multiplies, then divides by 64
truncating. -/
def Pt.add (p q : Pt) : Pt := ⟨wrap32 (p.x + q.x), wrap32 (p.y + q.y)⟩
@[inherit_doc Pt.add] def Pt.sub (p q : Pt) : Pt := ⟨wrap32 (p.x - q.x), wrap32 (p.y - q.y)⟩
@[inherit_doc Pt.add] def Pt.mul (p : Pt) (k : Int) : Pt :=
  ⟨(wrap32 (p.x * k)).tdiv 64, (wrap32 (p.y * k)).tdiv 64⟩

/-- shapes.go:31-43 -/
def addRect (minX minY maxX maxY rot : F) : Path :=
  let rot := rot *. GoFloat.piMul (1 / 180)
  let cx := (minX +. maxX) /. num 2
  let cy := (minY +. maxY) /. num 2
  let m := ((Matrix2D.identity.translate cx cy).rotate rot).translate (neg cx) (neg cy)
  [.moveTo (m.tFixed (toFixedP minX minY)),
   .lineTo (m.tFixed (toFixedP maxX minY)),
   .lineTo (m.tFixed (toFixedP maxX maxY)),
   .lineTo (m.tFixed (toFixedP minX maxY)),
   .close]

/-- shapes.go:45-49 -/
def length (F : Type) [GoFloat F] (v : Pt) : Int :=
  let vx : F := ofInt v.x
  let vy : F := ofInt v.y
  toI32 (sqrt (vx *. vx +. vy *. vy))

/-- shapes.go:63-65 and 67-69: `for t < limit { t += math.Pi * 2 }`; `none` when the fuel is exhausted. -/
def raise : Nat → F → F → Option F
  | fuel, t, limit =>
    if GoFloat.lt t limit then
      match fuel with
      | 0 => none
      | fuel + 1 => raise fuel (t +. GoFloat.piMul 2) limit
    else some t

/-- shapes.go:92-101: the loop of `addArc`; `n` iterations remain, `i` is the loop variable. -/
def circLoop (m : Matrix2D F) (a : Pt) (theta1 dTheta r : F) (alpha : Int) : Nat → Nat → Pt → Pt → Path
  | 0, _, _, _ => []
  | n + 1, i, s1, ldp =>
    let eta := theta1 +. dTheta *. ofInt i
    let ds2 : Pt := ⟨wrap32 (-(toI32 (r *. sin eta))), toI32 (r *. cos eta)⟩
    let ps2 : Pt := ⟨wrap32 (a.x + ds2.y), wrap32 (a.y - ds2.x)⟩
    let p1 := s1.add (ldp.mul alpha)
    let p2 := ps2.sub (ds2.mul alpha)
    .cubicTo (m.tFixed p1) (m.tFixed p2) (m.tFixed ps2)
      :: circLoop m a theta1 dTheta r alpha n (i + 1) ps2 ds2

/-- shapes.go:51-102 `addArc` with a `matrixAdder` of matrix `m`. `firstPoint` gives the operations added for the first
point. The four points returned by the Go function are not used by its only caller and are left out. -/
def addArcCirc (fuel : Nat) (m : Matrix2D F) (a s1 s2 : Pt) (clockwise : Bool) (trimStart trimEnd : Int)
    (firstPoint : Pt → Path) : Option Path :=
  let theta1 : F := atan2 (ofInt (wrap32 (s1.y - a.y))) (ofInt (wrap32 (s1.x - a.x)))
  let theta2 : F := atan2 (ofInt (wrap32 (s2.y - a.y))) (ofInt (wrap32 (s2.x - a.x)))
  let thetas : Option (F × F) :=
    if !clockwise then (raise fuel theta1 theta2).map fun t => (t, theta2)
    else (raise fuel theta2 theta1).map fun t => (theta1, t)
  thetas.map fun (theta1, theta2) =>
    let deltaTheta := theta2 -. theta1
    let (theta1, deltaTheta) : F × F :=
      if trimStart > 0 then
        let ds := (deltaTheta *. ofInt trimStart) /. num 16384
        (theta1 +. ds, deltaTheta -. ds)
      else (theta1, deltaTheta)
    let deltaTheta : F :=
      if trimEnd > 0 then
        let ds := (deltaTheta *. ofInt trimEnd) /. num 16384
        deltaTheta -. ds
      else deltaTheta
    let segs := wrap64 (toInt (GoFloat.abs deltaTheta /. GoFloat.piMul (1 / 8)) + 1)
    let dTheta := deltaTheta /. ofInt segs
    let tde := tan (dTheta /. num 2)
    let alpha := toI32 (sin dTheta *. (sqrt (num 4 +. num 3 *. tde *. tde) -. num 1) *. num (64 / 3))
    let r : F := ofInt (length F (s1.sub a))
    let ldp : Pt := ⟨wrap32 (-(toI32 (r *. sin theta1))), toI32 (r *. cos theta1)⟩
    let ps1 : Pt := ⟨wrap32 (a.x + ldp.y), wrap32 (a.y - ldp.x)⟩
    firstPoint ps1 ++ circLoop m a theta1 dTheta r alpha segs.toNat 1 ps1 ldp

/-- shapes.go:104-109 -/
def roundGap (fuel : Nat) (m : Matrix2D F) (a tNorm lNorm : Pt) : Option Path :=
  (addArcCirc fuel m a (a.add tNorm) (a.add lNorm) true 0 0 fun p => [.lineTo (m.tFixed p)]).map
    fun ops => ops ++ [.lineTo (m.tFixed (a.add lNorm))]

/-- shapes.go:111-148 -/
def addRoundRect (fuel : Nat) (minX minY maxX maxY rx ry rot : F) : Option Path :=
  if GoFloat.le rx (num 0) || GoFloat.le ry (num 0) then
    some (addRect minX minY maxX maxY rot)
  else
    let rot := rot *. GoFloat.piMul (1 / 180)
    let w := maxX -. minX
    let rx := if GoFloat.lt w (rx *. num 2) then w /. num 2 else rx
    let h := maxY -. minY
    let ry := if GoFloat.lt h (ry *. num 2) then h /. num 2 else ry
    let stretch := rx /. ry
    let midY := minY +. h /. num 2
    let m := (((Matrix2D.identity.translate (minX +. w /. num 2) midY).rotate rot).scale (num 1) (num 1 /. stretch)).translate
      (neg minX -. w /. num 2) (neg minY -. h /. num 2)
    let maxY := midY +. h /. num 2 *. stretch
    let minY := midY -. h /. num 2 *. stretch
    match roundGap fuel m (toFixedP (maxX -. rx) (minY +. rx)) (toFixedP (num 0) (neg rx)) (toFixedP rx (num 0)),
      roundGap fuel m (toFixedP (maxX -. rx) (maxY -. rx)) (toFixedP rx (num 0)) (toFixedP (num 0) rx),
      roundGap fuel m (toFixedP (minX +. rx) (maxY -. rx)) (toFixedP (num 0) rx) (toFixedP (neg rx) (num 0)),
      roundGap fuel m (toFixedP (minX +. rx) (minY +. rx)) (toFixedP (neg rx) (num 0)) (toFixedP (num 0) (neg rx)) with
    | some g1, some g2, some g3, some g4 =>
      some ([.moveTo (m.tFixed (toFixedP (minX +. rx) minY)),
             .lineTo (m.tFixed (toFixedP (maxX -. rx) minY))] ++ g1 ++
            [.lineTo (m.tFixed (toFixedP maxX (maxY -. rx)))] ++ g2 ++
            [.lineTo (m.tFixed (toFixedP (minX +. rx) maxY))] ++ g3 ++
            [.lineTo (m.tFixed (toFixedP minX (minY +. rx)))] ++ g4 ++
            [.close])
    | _, _, _, _ => none

/-- shapes.go:207-214 -/
def ellipsePrime (a b sinTheta cosTheta eta _cx _cy : F) : F × F :=
  let bCosEta := b *. cos eta
  let aSinEta := a *. sin eta
  (neg aSinEta *. cosTheta -. bCosEta *. sinTheta, neg aSinEta *. sinTheta +. bCosEta *. cosTheta)

/-- shapes.go:216-223 -/
def ellipsePointAt (a b sinTheta cosTheta eta cx cy : F) : F × F :=
  let aCosEta := a *. cos eta
  let bSinEta := b *. sin eta
  (cx +. aCosEta *. cosTheta -. bSinEta *. sinTheta, cy +. aCosEta *. sinTheta +. bSinEta *. cosTheta)

/-- The first seven entries of the slice given to `addArc`: radii, rotation in degrees, large-arc and sweep flags, end
point. -/
structure ArcArgs (F : Type) where
  rx : F
  ry : F
  rot : F
  large : F
  sweep : F
  x : F
  y : F

/-- shapes.go:164-177: the parametric angle spanned by the arc, with its sign. -/
def arcDeltaEta (p : ArcArgs F) (cx cy px py : F) : F × F :=
  let rotX := p.rot *. GoFloat.piMul 1 /. num 180
  let largeArc := !GoFloat.eq p.large (num 0)
  let sweep := !GoFloat.eq p.sweep (num 0)
  let startAngle := atan2 (py -. cy) (px -. cx) -. rotX
  let endAngle := atan2 (p.y -. cy) (p.x -. cx) -. rotX
  let deltaTheta := endAngle -. startAngle
  let arcBig := GoFloat.lt (GoFloat.piMul 1) (GoFloat.abs deltaTheta)
  let etaStart := atan2 (sin startAngle /. p.ry) (cos startAngle /. p.rx)
  let etaEnd := atan2 (sin endAngle /. p.ry) (cos endAngle /. p.rx)
  let deltaEta := etaEnd -. etaStart
  let deltaEta :=
    if (arcBig && !largeArc) || (!arcBig && largeArc) then
      if GoFloat.lt deltaEta (num 0) then deltaEta +. GoFloat.piMul 2 else deltaEta -. GoFloat.piMul 2
    else deltaEta
  let deltaEta :=
    if GoFloat.lt deltaEta (num 0) && sweep then deltaEta +. GoFloat.piMul 2
    else if GoFloat.le (num 0) deltaEta && !sweep then deltaEta -. GoFloat.piMul 2
    else deltaEta
  (etaStart, deltaEta)

/-- shapes.go:191-203: the loop of `Path.addArc`; `n` iterations remain. -/
def ellLoop (p : ArcArgs F) (cx cy sinTheta cosTheta etaStart dEta alpha : F) :
    Nat → Nat → F → F → F → F → Path × F × F
  | 0, _, lx, ly, _, _ => ([], lx, ly)
  | n + 1, i, lx, ly, ldx, ldy =>
    let eta := etaStart +. dEta *. ofInt i
    let (px, py) : F × F :=
      if n = 0 then (p.x, p.y) else ellipsePointAt p.rx p.ry sinTheta cosTheta eta cx cy
    let (dx, dy) := ellipsePrime p.rx p.ry sinTheta cosTheta eta cx cy
    let op := Op.cubicTo (toFixedP (lx +. alpha *. ldx) (ly +. alpha *. ldy))
      (toFixedP (px -. alpha *. dx) (py -. alpha *. dy)) (toFixedP px py)
    let (ops, ex, ey) := ellLoop p cx cy sinTheta cosTheta etaStart dEta alpha n (i + 1) px py dx dy
    (op :: ops, ex, ey)

/-- shapes.go:180: the number of cubics -/
def arcSegs (deltaEta : F) : Int := wrap64 (toInt (GoFloat.abs deltaEta /. GoFloat.piMul (1 / 8)) + 1)

/-- shapes.go:150-205 `Path.addArc`: the operations added and the new current point. -/
def addArc (p : ArcArgs F) (cx cy px py : F) : Path × F × F :=
  let (etaStart, deltaEta) := arcDeltaEta p cx cy px py
  let segs := arcSegs deltaEta
  let dEta := deltaEta /. ofInt segs
  let tde := tan (dEta /. num 2)
  let alpha := sin dEta *. (sqrt (num 4 +. num 3 *. tde *. tde) -. num 1) /. num 3
  let rotX := p.rot *. GoFloat.piMul 1 /. num 180
  let sinTheta := sin rotX
  let cosTheta := cos rotX
  let (ldx, ldy) := ellipsePrime p.rx p.ry sinTheta cosTheta etaStart cx cy
  ellLoop p cx cy sinTheta cosTheta etaStart dEta alpha segs.toNat 1 px py ldx ldy

/-- The result of `findEllipseCenter`: the radii it leaves behind the pointers and the centre. -/
structure Center (F : Type) where
  ra : F
  rb : F
  cx : F
  cy : F

/-- shapes.go:225-273 -/
def findEllipseCenter (ra rb rotX startX startY endX endY : F) (sweep smallArc : Bool) : Center F :=
  let cosR := cos rotX
  let sinR := sin rotX
  let nx := endX -. startX
  let ny := endY -. startY
  let (nx, ny) : F × F := (nx *. cosR +. ny *. sinR, neg nx *. sinR +. ny *. cosR)
  let nx := nx *. (rb /. ra)
  let midX := nx /. num 2
  let midY := ny /. num 2
  let midlenSq := midX *. midX +. midY *. midY
  let (ra, rb, hr) : F × F × F :=
    if GoFloat.lt (rb *. rb) midlenSq then
      let nrb := sqrt midlenSq
      (if GoFloat.eq ra rb then nrb else ra *. nrb /. rb, nrb, num 0)
    else (ra, rb, sqrt (rb *. rb -. midlenSq) /. sqrt midlenSq)
  let (cx, cy) : F × F :=
    if (sweep && smallArc) || (!sweep && !smallArc) then (midX +. midY *. hr, midY -. midX *. hr)
    else (midX -. midY *. hr, midY +. midX *. hr)
  let cx := cx *. (ra /. rb)
  ⟨ra, rb, cx *. cosR -. cy *. sinR +. startX, cx *. sinR +. cy *. cosR +. startY⟩

end GoSvg
