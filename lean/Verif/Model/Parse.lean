import Verif.Model.Elements

/-! parse.go `readStartElement` and svg.go `Parse`. -/

namespace GoSvg

variable {F : Type} [GoFloat F] [GoEnv]

open SM (get modify throw lift panic diverge forEach)

/-- What encoding/xml's decoder delivers; `other` is a comment, processing instruction or directive, which `Parse`
ignores. -/
inductive Token where
  | start (name : Str) (attrs : List Attr)
  | stop (name : Str)
  | chars (s : Str)
  | other
deriving DecidableEq, Repr

/-- How the token stream ends: `io.EOF`, or an error of the reader or of the XML syntax. -/
inductive StreamEnd where
  | eof
  | error (e : Nat)
deriving DecidableEq, Repr

/-- parse.go:376-387: a path parsed by the element is stored with the current style. Runs whether or not the element
function returned an error. -/
def emitPath (c : Cursor F) : Res Unit × Cursor F :=
  match c.pc.path with
  | [] => (.ok (), c)
  | path =>
    let c' := { c with pc := { c.pc with path := [] } }
    match c.inMask, c.mask, c.styleStack with
    | true, none, _ => (.ok (), c')
    | _, _, [] => (.panic .styleStack, c)
    | true, some m, style :: _ =>
      (.ok (), { c' with mask := some { m with svgPaths := m.svgPaths ++ [⟨path, style⟩] } })
    | false, _, style :: _ =>
      (.ok (), { c' with svg := { c.svg with svgPaths := c.svg.svgPaths ++ [⟨path, style⟩] } })

/-- parse.go:347-352: the last `id` attribute -/
def lastID (attrs : List Attr) : Str :=
  attrs.foldl (fun id a => if a.name = "id".toList then a.value else id) []

/-- parse.go:346-362: an element inside `defs` is recorded. -/
def recordDef (name : Str) (attrs : List Attr) (c : Cursor F) : Cursor F :=
  let id := lastID attrs
  let c := match c.currentDef with
    | d0 :: _ =>
      if id ≠ [] then
        { c with svg := { c.svg with defs := c.svg.defs.insert d0.id c.currentDef }, currentDef := [] }
      else c
    | [] => c
  { c with currentDef := c.currentDef ++ [⟨id, name, attrs⟩] }

/-- parse.go:341-389 -/
def readStartElement (fuel : Nat) (name : Str) (attrs : List Attr) : CM F Unit := fun c =>
  let skipDef := name = "radialGradient".toList ∨ name = "linearGradient".toList ∨ c.inGrad
  if c.inDefs ∧ ¬ skipDef then (.ok (), recordDef name attrs c)
  else match drawFuncs fuel (useF fuel) name with
    | none => handleError (.cannotProcess name) c
    | some df =>
      match df attrs c with
      | (.panic s, c) => (.panic s, c)
      | (.diverge, c) => (.diverge, c)
      | (r, c) => match emitPath c with
        | (.ok (), c) => (r, c)
        | (r', c) => (r', c)

/-- svg.go:97-125: an end tag. -/
def readEndElement (name : Str) : CM F Unit := do
  popStyle
  modify fun c =>
    if name = "g".toList then
      if c.inDefs then { c with currentDef := c.currentDef ++ [⟨[], "endg".toList, []⟩] } else c
    else if name = "mask".toList then
      match c.mask with
      | some m => { c with svg := { c.svg with svgMasks := c.svg.svgMasks.insert m.id m }, mask := none, inMask := false }
      | none => { c with inMask := false }
    else if name = "title".toList then { c with inTitleText := false }
    else if name = "desc".toList then { c with inDescText := false }
    else if name = "defs".toList then
      match c.currentDef with
      | d0 :: _ =>
        { c with svg := { c.svg with defs := c.svg.defs.insert d0.id c.currentDef }, currentDef := [], inDefs := false }
      | [] => { c with inDefs := false }
    else if name = "radialGradient".toList ∨ name = "linearGradient".toList then { c with inGrad := false }
    else c

/-- `ts[len(ts)-1] += s`; `none` when the slice is empty (a panic). -/
def appendLast (ts : List Str) (s : Str) : Option (List Str) :=
  match ts with
  | [] => none
  | [t] => some [t ++ s]
  | t :: u :: ts => (appendLast (u :: ts) s).map (t :: ·)

/-- svg.go:126-132: character data. -/
def readChars (s : Str) : CM F Unit := fun c =>
  match (if c.inTitleText then appendLast c.svg.titles s else some c.svg.titles) with
  | none => (.panic .text, c)
  | some titles =>
    let c := { c with svg := { c.svg with titles := titles } }
    match (if c.inDescText then appendLast c.svg.descriptions s else some c.svg.descriptions) with
    | none => (.panic .text, c)
    | some descs => (.ok (), { c with svg := { c.svg with descriptions := descs } })

/-- svg.go:84-133: one token. -/
def readToken (fuel : Nat) : Token → CM F Unit
  | .start name attrs => do
    pushStyle attrs
    readStartElement fuel name attrs
  | .stop name => readEndElement name
  | .chars s => readChars s
  | .other => pure ()

/-- svg.go:72-134: the loop over the tokens, up to the end of the stream or the first failure. -/
def readTokens (fuel : Nat) : List Token → CM F Unit
  | [] => pure ()
  | t :: ts => do
    readToken fuel t
    readTokens fuel ts

/-- What `Parse` gives to its caller. `svg = none` is a nil `*Svg`. -/
inductive Outcome (F : Type) where
  | done (svg : Option (Svg F)) (err : Option Err) (log : List Msg)
  | panic (s : Site)
  | diverge
deriving DecidableEq, Repr

/-- svg.go:61-66 -/
def initSvg : Svg F where
  viewBox := ⟨num 0, num 0, num 0, num 0⟩
  titles := []
  descriptions := []
  svgPaths := []
  transform := Matrix2D.identity
  svgMasks := []
  width := []
  height := []
  grads := []
  defs := []
  gradHeap := []
  arrays := [[]]

/-- svg.go:67-68 -/
def initCursor (mode : ErrorMode) : Cursor F where
  pc := {
    path := [], placeX := num 0, placeY := num 0, curX := num 0, curY := num 0, cntlPtX := num 0, cntlPtY := num 0
    pathStartX := num 0, pathStartY := num 0, points := [], lastKey := Char.ofNat 0, errorMode := mode, inPath := false
    log := [] }
  svg := initSvg
  styleStack := [defaultStyle]
  grad := none
  inTitleText := false
  inDescText := false
  inGrad := false
  inDefs := false
  inMask := false
  currentDef := []
  mask := none

/-- Whether a start tag has been read (`seenTag`, svg.go:71, 86). -/
def Token.isStart : Token → Bool
  | .start _ _ => true
  | _ => false

/-- svg.go:60-136 `Parse`. -/
def parse (fuel : Nat) (mode : ErrorMode) (tokens : List Token) (fin : StreamEnd) : Outcome F :=
  match readTokens fuel tokens (initCursor mode) with
  | (.ok (), c) =>
    match fin with
    | .error e => .done (some c.svg) (some (.reader e)) c.pc.log
    | .eof =>
      if tokens.any Token.isStart then .done (some c.svg) none c.pc.log
      else .done none (some .noElement) c.pc.log
  | (.err e, c) => .done (some c.svg) (some e) c.pc.log
  | (.panic s, _) => .panic s
  | (.diverge, _) => .diverge

end GoSvg
