import Verif.Model.Color

/-! parse.go: styles, transforms, selectors. -/

namespace GoSvg

variable {F : Type} [GoFloat F] [GoEnv]

/-- Programs over the parser's cursor. -/
abbrev CM (F α : Type) := SM (Cursor F) α

open SM (get modify throw lift panic diverge forEach)

/-- Runs a path-cursor program on the embedded path cursor (parse.go:17). -/
def onPath {α : Type} (m : PM F α) : CM F α := fun c =>
  match m c.pc with
  | (r, pc) => (r, { c with pc := pc })

/-- parse.go:37-46 -/
def handleError (m : Msg) : CM F Unit := fun c =>
  if c.pc.errorMode = ErrorMode.strict then (.err (.reported m), c)
  else if c.pc.errorMode = ErrorMode.warn then (.ok (), { c with pc := { c.pc with log := c.pc.log ++ [m] } })
  else (.ok (), c)

/-- types.go:121-136 `DefaultStyle`; its `Masks` is an empty slice of capacity 0 (array 0 of the memory). -/
def defaultStyle : PathStyle F where
  fillOpacity := num 1
  lineOpacity := num 1
  lineWidth := num 2
  useNonZeroWinding := true
  join := {
    miterLimit := toFix (F := F) (num 4), lineJoin := .bevel, trailLineCap := .butt, leadLineCap := .nilCap
    lineGap := .nilGap }
  dash := ⟨[], num 0⟩
  fillerColor := some (.plain ⟨0, 0, 0, 255⟩)
  linerColor := none
  masks := ⟨0, 0, 0⟩
  transform := Matrix2D.identity

/-- parse.go:48-106, with the arguments already in `ps`. -/
def readTransformAttr (m1 : Matrix2D F) (k : Str) (ps : List F) : Res (Matrix2D F) :=
  let rad (d : F) : F := d *. GoFloat.piMul 1 /. num 180
  if k = "rotate".toList then
    match ps with
    | [a] => .ok (m1.rotate (rad a))
    | [a, x, y] => .ok (((m1.translate x y).rotate (rad a)).translate (GoFloat.neg x) (GoFloat.neg y))
    | _ => .err .paramMismatch
  else if k = "translate".toList then
    match ps with
    | [x] => .ok (m1.translate x x)
    | [x, y] => .ok (m1.translate x y)
    | _ => .err .paramMismatch
  else if k = "skewx".toList then
    match ps with
    | [a] => .ok (m1.skewX (rad a))
    | _ => .err .paramMismatch
  else if k = "skewy".toList then
    match ps with
    | [a] => .ok (m1.skewY (rad a))
    | _ => .err .paramMismatch
  else if k = "scale".toList then
    match ps with
    | [x] => .ok (m1.scale x x)
    | [x, y] => .ok (m1.scale x y)
    | _ => .err .paramMismatch
  else if k = "matrix".toList then
    match ps with
    | [a, b, c, d, e, f] => .ok (m1.mult ⟨a, b, c, d, e, f⟩)
    | _ => .err .paramMismatch
  else .err .paramMismatch

/-- parse.go:113-130: the loop over the items, given in the order in which they are visited (last to first). -/
def transformLoop (m1 : Matrix2D F) : List Str → CM F (Matrix2D F)
  | [] => pure m1
  | item :: rest =>
    let t := trimSpace item
    if t = [] then transformLoop m1 rest
    else match split '(' t with
      | [name, args] =>
        if args = [] then throw .paramMismatch
        else do
          onPath (getPoints args)
          let c ← get
          let m1 ← lift (readTransformAttr m1 (toLower (trimSpace name)) c.pc.points)
          transformLoop m1 rest
      | _ => throw .paramMismatch

/-- parse.go:108-132 -/
def parseTransform (v : Str) : CM F (Matrix2D F) := do
  let c ← get
  match c.styleStack with
  | [] => panic .styleStack
  | top :: _ => transformLoop top.transform (split ')' v).reverse

/-- parse.go:134-150 -/
def parseSelector (v : Str) : Res Str :=
  if v = [] ∨ v = "none".toList then .ok []
  else if hasPrefix v "url(".toList then
    match v.idxOf? ')' with
    | none => .err .paramMismatch
    | some i =>
      let v := (v.take i).drop 4
      match v with
      | '#' :: id => .ok id
      | _ => .err (.unsupportedURL v)
  else .err (.unsupportedSelector v)

/-- patterns.go:255-271 -/
def readGradURL (svg : Svg F) (v : Str) (defaultColor : Option (Pattern F)) : Option (Gradient F) :=
  if hasPrefix v "url(".toList && hasSuffix v ")".toList then
    match trimSpace (v.drop 4).dropLast with
    | '#' :: id =>
      match svg.grads.find id with
      | some addr => (svg.gradHeap[addr]?).map fun g => localizeGrad g defaultColor
      | none => none
    | _ => none
  else none

/-- parse.go:184-195 -/
def gapOf (v : Str) : Option GapMode :=
  if v = "flat".toList then some .flat
  else if v = "round".toList then some .round
  else if v = "cubic".toList then some .cubic
  else if v = "quadratic".toList then some .quadratic
  else none

/-- parse.go:197-210 and 212-225 -/
def capOf (v : Str) : Option CapMode :=
  if v = "butt".toList then some .butt
  else if v = "round".toList then some .round
  else if v = "square".toList then some .square
  else if v = "cubic".toList then some .cubic
  else if v = "quadratic".toList then some .quadratic
  else none

/-- parse.go:227-242 -/
def joinOf (v : Str) : Option JoinMode :=
  if v = "miter".toList then some .miter
  else if v = "miter-clip".toList then some .miterClip
  else if v = "arc-clip".toList then some .arcClip
  else if v = "round".toList then some .round
  else if v = "arc".toList then some .arc
  else if v = "bevel".toList then some .bevel
  else none

/-- parse.go:333-339 -/
def splitOnCommaOrSpace (s : Str) : List Str := fieldsFunc (fun r => r = ',' || r = ' ') s

/-- parse.go:264-271 -/
def parseDashes (vb : Bounds F) : List Str → Res (List F)
  | [] => .ok []
  | d :: ds =>
    match resolveUnit vb (trimSpace d) .diag with
    | .ok f => match parseDashes vb ds with
      | .ok fs => .ok (f :: fs)
      | .err e => .err e
      | .panic s => .panic s
      | .diverge => .diverge
    | .err e => .err e
    | .panic s => .panic s
    | .diverge => .diverge

/-- parse.go:297 `append(curStyle.Masks, id)`: writes into the array when there is room, otherwise copies into a new
array of the next capacity. -/
def appendMask (arrays : List (List Str)) (s : Slice) (id : Str) : List (List Str) × Slice :=
  if s.len < s.cap then
    (arrays.modify s.arr fun a => a.set s.len id, { s with len := s.len + 1 })
  else
    let cap := GoEnv.growCap s.cap
    let fresh := s.read arrays ++ id :: List.replicate (cap - s.len - 1) []
    (arrays ++ [fresh], ⟨arrays.length, s.len + 1, cap⟩)

/-- parse.go:297: `curStyle.Masks = append(curStyle.Masks, id)` -/
def addMask (st : PathStyle F) (id : Str) : CM F (PathStyle F) := fun c =>
  let (arrays, s) := appendMask c.svg.arrays st.masks id
  (.ok { st with masks := s }, { c with svg := { c.svg with arrays := arrays } })

/-- parse.go:152-300. The style is returned instead of being changed through the pointer (on an error the caller drops
it). -/
def readStyleAttr (st : PathStyle F) (k v : Str) : CM F (PathStyle F) := do
  let c ← get
  if k = "fill".toList then
    match readGradURL c.svg v st.fillerColor with
    | some g => pure { st with fillerColor := some (.gradient g) }
    | none => do
      let col ← lift (parseSVGColor v)
      pure { st with fillerColor := col.map .plain }
  else if k = "fill-rule".toList then
    if v = "evenodd".toList then pure { st with useNonZeroWinding := false }
    else if v = "nonzero".toList then pure { st with useNonZeroWinding := true }
    else do
      handleError (.unsupportedValue k v)
      pure st
  else if k = "stroke".toList then
    match readGradURL c.svg v st.linerColor with
    | some g => pure { st with linerColor := some (.gradient g) }
    | none => do
      let col ← lift (parseSVGColor v)
      pure { st with linerColor := col.map .plain }
  else if k = "stroke-linegap".toList then
    match gapOf v with
    | some g => pure { st with join := { st.join with lineGap := g } }
    | none => do
      handleError (.unsupportedValue k v)
      pure st
  else if k = "stroke-leadlinecap".toList then
    match capOf v with
    | some g => pure { st with join := { st.join with leadLineCap := g } }
    | none => do
      handleError (.unsupportedValue k v)
      pure st
  else if k = "stroke-linecap".toList then
    match capOf v with
    | some g => pure { st with join := { st.join with trailLineCap := g } }
    | none => do
      handleError (.unsupportedValue k v)
      pure st
  else if k = "stroke-linejoin".toList then
    match joinOf v with
    | some g => pure { st with join := { st.join with lineJoin := g } }
    | none => do
      handleError (.unsupportedValue k v)
      pure st
  else if k = "stroke-miterlimit".toList then do
    let f ← lift (parseBasicFloat (F := F) v)
    pure { st with join := { st.join with miterLimit := toFix f } }
  else if k = "stroke-width".toList then do
    let f ← lift (resolveUnit c.svg.viewBox v .width)
    pure { st with lineWidth := f }
  else if k = "stroke-dashoffset".toList then do
    let f ← lift (resolveUnit c.svg.viewBox v .diag)
    pure { st with dash := { st.dash with dashOffset := f } }
  else if k = "stroke-dasharray".toList then
    if v ≠ "none".toList then do
      let ds ← lift (parseDashes c.svg.viewBox (splitOnCommaOrSpace v))
      pure { st with dash := { st.dash with dash := ds } }
    else pure st
  else if k = "opacity".toList ∨ k = "stroke-opacity".toList ∨ k = "fill-opacity".toList then do
    let op ← lift (parseBasicFloat v)
    let st := if k ≠ "stroke-opacity".toList then { st with fillOpacity := st.fillOpacity *. op } else st
    let st := if k ≠ "fill-opacity".toList then { st with lineOpacity := st.lineOpacity *. op } else st
    pure st
  else if k = "transform".toList then do
    let m ← parseTransform v
    pure { st with transform := m }
  else if k = "mask".toList then do
    let id ← lift (parseSelector v)
    addMask st id
  else pure st

/-- parse.go:306-314 -/
def stylePairs : List Attr → List Str
  | [] => []
  | a :: as =>
    if toLower a.name = "style".toList then split ';' a.value ++ stylePairs as
    else (a.name ++ ':' :: a.value) :: stylePairs as

/-- parse.go:317-328 -/
def pairsLoop (st : PathStyle F) : List Str → CM F (PathStyle F)
  | [] => pure st
  | pair :: rest =>
    match split ':' pair with
    | k :: v :: _ => do
      let st ← readStyleAttr st (trimSpace (toLower k)) (trimSpace v)
      pairsLoop st rest
    | _ => pairsLoop st rest

/-- parse.go:302-331 -/
def pushStyle (attrs : List Attr) : CM F Unit := do
  let c ← get
  match c.styleStack with
  | [] => panic .styleStack
  | top :: _ =>
    let st ← pairsLoop top (stylePairs attrs)
    modify fun c => { c with styleStack := st :: c.styleStack }

/-- `c.styleStack = c.styleStack[:len(c.styleStack)-1]` (svg.go:99, svg_elements.go:478, 494) -/
def popStyle : CM F Unit := fun c =>
  match c.styleStack with
  | [] => (.panic .styleStack, c)
  | _ :: rest => (.ok (), { c with styleStack := rest })

end GoSvg
