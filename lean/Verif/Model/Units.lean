import Verif.Model.Matrix

/-! units.go -/

namespace GoSvg

variable {F : Type} [GoFloat F]

/-- units.go:11-23 -/
inductive Unite where
  | px | cm | mm | pt | in | q | pc | perc
deriving DecidableEq, Repr

/-- units.go:25, in the order of the array -/
def absoluteUnits : List (Unite × Str) :=
  [(.px, "px".toList), (.cm, "cm".toList), (.mm, "mm".toList), (.pt, "pt".toList), (.in, "in".toList),
   (.q, "Q".toList), (.pc, "pc".toList), (.perc, "%".toList)]

/-- units.go:27 (constant expressions: exact, then rounded once) -/
def toPx : Unite → F
  | .px => num 1
  | .cm => num (9600 / 254)
  | .mm => num (960 / 254)
  | .pt => num (96 / 72)
  | .in => num 96
  | .q => num (9600 / (40 * 254))
  | .pc => num (96 / 6)
  | .perc => num 1

/-- units.go:33-38: the loop over the suffixes -/
def findUnitGo (s : Str) : List (Unite × Str) → Unite × Str
  | [] => (.px, s)
  | (u, suffix) :: us =>
    if hasSuffix s suffix then (u, trimSpace (trimSuffix s suffix)) else findUnitGo s us

/-- units.go:29-40 -/
def findUnit (s : Str) : Unite × Str := findUnitGo (trimSpace s) absoluteUnits

/-- units.go:42-47. The value that accompanies an error is never used by the callers. -/
def parseUnit (s : Str) : Res (F × Bool) :=
  let (unite, value) := findUnit s
  match GoFloat.parse value with
  | none => .err .badFloat
  | some out => .ok (out *. toPx unite, unite == .perc)

/-- units.go:49-55 -/
inductive PercRef where
  | width | height | diag
deriving DecidableEq, Repr

/-- units.go:9 -/
def root2 : F := GoFloat.sqrt (num 2)

/-- units.go:57-78 -/
def resolveUnit (viewBox : Bounds F) (s : Str) (asPerc : PercRef) : Res F :=
  match parseUnit s with
  | .ok (value, isPercentage) =>
    if isPercentage then
      let w := viewBox.w
      let h := viewBox.h
      match asPerc with
      | .width => .ok (value /. num 100 *. w)
      | .height => .ok (value /. num 100 *. h)
      | .diag =>
        let normalizedDiag := GoFloat.sqrt (w *. w +. h *. h) /. root2
        .ok (value /. num 100 *. normalizedDiag)
    else .ok value
  | .err e => .err e
  | .panic s => .panic s
  | .diverge => .diverge

/-- units.go:86-89 -/
def parseBasicFloat (s : Str) : Res F :=
  match parseUnit s with
  | .ok (value, _) => .ok value
  | .err e => .err e
  | .panic s => .panic s
  | .diverge => .diverge

/-- units.go:91-107 -/
def readFraction (v : Str) : Res F :=
  let v := trimSpace v
  let (d, v) : F × Str := if hasSuffix v "%".toList then (num 100, trimSuffix v "%".toList) else (num 1, v)
  match parseBasicFloat v with
  | .ok f => .ok (f /. d)
  | .err e => .err e
  | .panic s => .panic s
  | .diverge => .diverge

end GoSvg
