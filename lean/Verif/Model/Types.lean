import Verif.Model.Go

/-! The data types of the package: types.go, path.go, svg.go, mask.go, patterns.go. -/

namespace GoSvg

/-- fixed.Point26_6 (int32 coordinates in units of 1/64 px) -/
structure Pt where
  x : Int
  y : Int
deriving DecidableEq, Repr

/-- path.go:13-34 the five operations -/
inductive Op where
  | moveTo (p : Pt)
  | lineTo (p : Pt)
  | quadTo (p q : Pt)
  | cubicTo (p q r : Pt)
  | close
deriving DecidableEq, Repr

/-- path.go:58-60 `Path` -/
abbrev Path := List Op

/-- matrix.go:12-15 -/
structure Matrix2D (F : Type) where
  a : F
  b : F
  c : F
  d : F
  e : F
  f : F
deriving DecidableEq, Repr

/-- svg.go:36-38 -/
structure Bounds (F : Type) where
  x : F
  y : F
  w : F
  h : F
deriving DecidableEq, Repr

/-- types.go:12-25 -/
inductive JoinMode where
  | arc | round | bevel | miter | miterClip | arcClip
deriving DecidableEq, Repr

/-- types.go:46-56 -/
inductive CapMode where
  | nilCap | butt | square | round | cubic | quadratic
deriving DecidableEq, Repr

/-- types.go:77-87 -/
inductive GapMode where
  | nilGap | flat | round | cubic | quadratic
deriving DecidableEq, Repr

/-- types.go:106-113 -/
structure JoinOptions where
  miterLimit : Int
  lineJoin : JoinMode
  trailLineCap : CapMode
  leadLineCap : CapMode
  lineGap : GapMode
deriving DecidableEq, Repr

/-- types.go:7-10 -/
structure DashOptions (F : Type) where
  dash : List F
  dashOffset : F
deriving DecidableEq, Repr

/-- patterns.go:146-153 -/
inductive GradientUnits where
  | objectBoundingBox | userSpaceOnUse
deriving DecidableEq, Repr

/-- patterns.go:155-163 -/
inductive SpreadMethod where
  | pad | reflect | repeat
deriving DecidableEq, Repr

/-- patterns.go:165-170. `StopColor` is a color.Color interface; `none` is nil. -/
structure GradStop (F : Type) where
  stopColor : Option Color
  offset : F
  opacity : F
deriving DecidableEq, Repr

/-- patterns.go:202-215 `Linear` and `Radial` -/
inductive Direction (F : Type) where
  | linear (x1 y1 x2 y2 : F)
  | radial (cx cy fx fy r fr : F)
deriving DecidableEq, Repr

/-- patterns.go:172-180. A nil `Direction` is `none`. -/
structure Gradient (F : Type) where
  direction : Option (Direction F)
  stops : List (GradStop F)
  bounds : Bounds F
  matrix : Matrix2D F
  spread : SpreadMethod
  units : GradientUnits
deriving DecidableEq, Repr

/-- patterns.go:15-30 `Pattern`; a nil pattern is `none` of the surrounding option. -/
inductive Pattern (F : Type) where
  | plain (c : Color)
  | gradient (g : Gradient F)
deriving DecidableEq, Repr

/-- A Go slice header of type []string: array address in the heap, length, capacity (offset always 0 here). -/
structure Slice where
  arr : Nat
  len : Nat
  cap : Nat
deriving DecidableEq, Repr

/-- svg.go:15-28 -/
structure PathStyle (F : Type) where
  fillOpacity : F
  lineOpacity : F
  lineWidth : F
  useNonZeroWinding : Bool
  join : JoinOptions
  dash : DashOptions F
  fillerColor : Option (Pattern F)
  linerColor : Option (Pattern F)
  masks : Slice
  transform : Matrix2D F
deriving DecidableEq, Repr

/-- svg.go:30-34 -/
structure SvgPath (F : Type) where
  path : Path
  style : PathStyle F
deriving DecidableEq, Repr

/-- mask.go:3-12 -/
structure SvgMask (F : Type) where
  id : Str
  x : F
  y : F
  w : F
  h : F
  svgPaths : List (SvgPath F)
  transform : Matrix2D F
deriving DecidableEq, Repr

/-- xml.Attr without the namespace, which the code never reads -/
structure Attr where
  name : Str
  value : Str
deriving DecidableEq, Repr

/-- parse.go:26-30 -/
structure Definition where
  id : Str
  tag : Str
  attrs : List Attr
deriving DecidableEq, Repr

/-- svg.go:40-54. `grads` holds addresses into `gradHeap` (Go pointers); `arrays` is the memory behind the `Masks`
slices of the styles. Both memories are part of the model only. -/
structure Svg (F : Type) where
  viewBox : Bounds F
  titles : List Str
  descriptions : List Str
  svgPaths : List (SvgPath F)
  transform : Matrix2D F
  svgMasks : GoMap (SvgMask F)
  width : Str
  height : Str
  grads : GoMap Nat
  defs : GoMap (List Definition)
  gradHeap : List (Gradient F)
  arrays : List (List Str)
deriving DecidableEq, Repr

/-- The strings a slice shows in a given memory. -/
def Slice.read (arrays : List (List Str)) (s : Slice) : List Str := (arrays.getD s.arr []).take s.len

/-- parse_path.go:14-24; `ErrorMode` is a uint8, every value other than 1 and 2 behaves like 0. -/
abbrev ErrorMode := Nat
def ErrorMode.ignore : ErrorMode := 0
def ErrorMode.warn : ErrorMode := 1
def ErrorMode.strict : ErrorMode := 2

/-- parse_path.go:32-43, with the log added. `lastKey` is a byte in Go: for a non-ASCII letter its first byte; it is
only ever compared with ASCII letters, so the letter itself is kept. -/
structure PathCursor (F : Type) where
  path : Path
  placeX : F
  placeY : F
  curX : F
  curY : F
  cntlPtX : F
  cntlPtY : F
  pathStartX : F
  pathStartY : F
  points : List F
  lastKey : Char
  errorMode : ErrorMode
  inPath : Bool
  log : List Msg
deriving DecidableEq, Repr

/-- parse.go:14-24. The top of `styleStack` is the head of the list (the end of the slice in Go); `grad` is an address
in `svg.gradHeap`. -/
structure Cursor (F : Type) where
  pc : PathCursor F
  svg : Svg F
  styleStack : List (PathStyle F)
  grad : Option Nat
  inTitleText : Bool
  inDescText : Bool
  inGrad : Bool
  inDefs : Bool
  inMask : Bool
  currentDef : List Definition
  mask : Option (SvgMask F)
deriving DecidableEq, Repr

end GoSvg
