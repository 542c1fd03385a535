import Verif.Model.PathParse

/-! patterns.go (colours and gradients), styles.go -/

namespace GoSvg

variable {F : Type} [GoFloat F] [GoEnv]

/-- patterns.go:103-116. The last byte is '%' exactly when the last character is. `n * 0xFF / 100` is int arithmetic:
64-bit wrap-around, then division truncating toward zero. -/
def parseColorValue (v : Str) : Res Nat :=
  match v.getLast? with
  | none => .panic .color           -- v[len(v)-1] with len(v) = 0
  | some '%' =>
    match atoi (trimSpace v.dropLast) with
    | none => .err .badInt
    | some n => .ok (toU8 ((wrap64 (n * 255)).tdiv 100))
  | some _ =>
    match atoi (trimSpace v) with
    | none => .err .badInt
    | some n => .ok (toU8 (if n > 255 then 255 else n))

/-- patterns.go:118-144 -/
def parseSVGColorNum (colorStr : Str) : Res (Nat × Nat × Nat) :=
  let bytes := utf8 (trimPrefix colorStr "#".toList)
  let six : Option (List Nat) :=
    if bytes.length ≠ 6 then
      match bytes with
      | b0 :: b1 :: b2 :: _ => some [b0, b0, b1, b1, b2, b2]
      | _ => none                    -- colorStr[0], [1] or [2] out of range
    else some bytes
  match six with
  | some [r1, r0, g1, g0, b1, b0] =>
    match parseHex2 r1 r0 with
    | none => .err .badHex
    | some r => match parseHex2 g1 g0 with
      | none => .err .badHex
      | some g => match parseHex2 b1 b0 with
        | none => .err .badHex
        | some b => .ok (r, g, b)
  | _ => .panic .color

/-- patterns.go:56-101. `none` in the result is the invalid (nil) colour, i.e. painting off. -/
def parseSVGColor (colorStr : Str) : Res (Option Color) :=
  let v := toLower colorStr
  if hasPrefix v "url".toList then .ok (some ⟨0, 0, 0, 255⟩)
  else if v = "none".toList then .ok none
  else match GoEnv.colorName v with
  | some cn =>
    -- cn.RGBA() gives 16-bit components x*0x101, of which uint8 keeps the low byte
    .ok (some ⟨toU8 (cn.r * 257), toU8 (cn.g * 257), toU8 (cn.b * 257), toU8 (cn.a * 257)⟩)
  | none =>
    let cStr := trimPrefix colorStr "rgb(".toList
    if cStr ≠ colorStr then
      let cStr := trimSuffix cStr ")".toList
      match split ',' cStr with
      | [v0, v1, v2] => do
        let r ← parseColorValue v0
        let g ← parseColorValue v1
        let b ← parseColorValue v2
        .ok (some ⟨r, g, b, 255⟩)
      | _ => .err .paramMismatch
    else match colorStr with
      | [] => .panic .color          -- colorStr[0]
      | c0 :: _ =>
        if c0 = '#' then
          match parseSVGColorNum colorStr with
          | .ok (r, g, b) => .ok (some ⟨r, g, b, 255⟩)
          | .err e => .err e
          | .panic s => .panic s
          | .diverge => .diverge
        else .err .paramMismatch

/-- colornames.Black. (A color.RGBA in Go; for an opaque colour RGBA and NRGBA agree.) -/
def black : Color := ⟨0, 0, 0, 255⟩

/-- patterns.go:217-231 -/
def getColor (p : Option (Pattern F)) : Color :=
  match p with
  | some (.gradient g) =>
    match g.stops.findSome? GradStop.stopColor with
    | some c => c
    | none => black
  | some (.plain c) => c
  | none => black

/-- patterns.go:233-253. The stops are copied before they are filled in, so the original is not changed. -/
def localizeGrad (g : Gradient F) (defaultColor : Option (Pattern F)) : Gradient F :=
  if g.stops.any fun s => s.stopColor.isNone then
    let clr := getColor defaultColor
    { g with stops := g.stops.map fun s => if s.stopColor.isNone then { s with stopColor := some clr } else s }
  else g

/-- patterns.go:182-200. Returns the gradient with its new bounds and the matrix. `mnx, mny, mxx, mxy` is the extent. -/
def applyPathExtent (g : Gradient F) (min max : Pt) : Gradient F × Matrix2D F :=
  match g.units with
  | .objectBoundingBox =>
    let mnx : F := GoFloat.ofInt min.x /. num 64
    let mny : F := GoFloat.ofInt min.y /. num 64
    let mxx : F := GoFloat.ofInt max.x /. num 64
    let mxy : F := GoFloat.ofInt max.y /. num 64
    let b : Bounds F := ⟨mnx, mny, mxx -. mnx, mxy -. mny⟩
    ({ g with bounds := b }, (Matrix2D.identity.scale b.w b.h).mult g.matrix)
  | .userSpaceOnUse => (g, g.matrix)

/-- styles.go:23-46: the pieces of the style that are appended to the attributes. -/
def stylePieces (names : List Str) : List Str → List Attr
  | [] => []
  | s :: rest =>
    match cut ':' s with
    | none => stylePieces names rest
    | some (key, val) =>
      let key := toLower (trimSpace key)
      if names = [] ∨ key ∈ names then ⟨key, trimSpace val⟩ :: stylePieces names rest
      else stylePieces names rest

/-- styles.go:8-53. The error result is always nil. -/
def appendStyleAttrs (attrs : List Attr) (names : List Str) : List Attr :=
  let style := match attrs.find? fun a => a.name = "style".toList with
    | some a => a.value
    | none => []
  if style = [] then attrs else attrs ++ stylePieces names (split ';' style)

end GoSvg
