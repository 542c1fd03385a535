import Verif.Spec.Cascade
import Mathlib.Data.List.Forall2

/-! Specification: the gradients of a document, and the paint of an element. `trimSpace`, `toLower`, `split` and `cut` are the
functions of Go's standard library; the texts of numbers, lengths, colours and transform lists are read as C01 - C04, C26, C27 and
C21 say. -/

namespace GoSvg.Spec

/-! ### Gradients in the text of a document -/

/-- The values of the attribute `n`. -/
def valuesNamed (n : String) (attrs : List Attr) : List Str := (attrs.filter fun a => a.name = n.toList).map (·.value)

/-- A gradient of a document: the tokens before its start tag, its name and attributes, and the attributes of its stops. -/
structure GradientText where
  before : List Token
  name : Str
  attrs : List Attr
  stops : List (List Attr)
deriving DecidableEq, Repr

/-- The names of the gradient. -/
def GradientText.ids (g : GradientText) : List Str := valuesNamed "id" g.attrs

/-- One more token: a start tag begins a gradient, a `stop` belongs to the gradient begun last unless that has ended. -/
def noteGradient (before : List Token) : List GradientText × Bool → Token → List GradientText × Bool
  | (gs, isOpen), .start n a =>
    if IsGrad n then (⟨before, n, a, []⟩ :: gs, true)
    else if n = "stop".toList ∧ isOpen = true then
      match gs with
      | g :: gs => ({ g with stops := g.stops ++ [a] } :: gs, isOpen)
      | [] => ([], isOpen)
    else (gs, isOpen)
  | (gs, isOpen), .stop n => (gs, isOpen && !decide (IsGrad n))
  | s, _ => s

def gradientsFrom (before : List Token) (s : List GradientText × Bool) : List Token → List GradientText × Bool
  | [] => s
  | t :: ts => gradientsFrom (before ++ [t]) (noteGradient before s t) ts

/-- The gradients begun in the tokens, the latest first, each with the stops it has got so far; and whether the latest is still
open. -/
def gradientsIn (ts : List Token) : List GradientText × Bool := gradientsFrom [] ([], false) ts

/-- The gradient that `id` names after the tokens: the latest one begun with that name. -/
def gradientNamed (id : Str) (ts : List Token) : Option GradientText := (gradientsIn ts).1.find? fun g => id ∈ g.ids

/-! ### What a gradient's attributes say -/

variable {F : Type}

/-- `x` is what the last of the texts says, or `d` if there is none. -/
def ReadLast {α : Type} (read : Str → Res α) (d : α) (vs : List Str) (x : α) : Prop :=
  match vs.getLast? with
  | none => x = d
  | some v => read v = .ok x

def unitWords : List (Str × GradientUnits) := [("userSpaceOnUse".toList, .userSpaceOnUse), ("objectBoundingBox".toList, .objectBoundingBox)]

/-- `gradientUnits`; other values than the two keywords are passed over. -/
def unitsOf (attrs : List Attr) : GradientUnits :=
  (((valuesNamed "gradientUnits" attrs).filterMap fun v => unitWords.lookup (trimSpace v)).getLast?).getD .objectBoundingBox

def spreadWords : List (Str × SpreadMethod) := [("pad".toList, .pad), ("reflect".toList, .reflect), ("repeat".toList, .repeat)]

/-- `spreadMethod`; other values than the three keywords are passed over. -/
def spreadOf (attrs : List Attr) : SpreadMethod :=
  (((valuesNamed "spreadMethod" attrs).filterMap fun v => spreadWords.lookup (trimSpace v)).getLast?).getD .pad

variable [GoFloat F]

/-- The rectangle that percentages of a gradient refer to. -/
def percentBox (units : GradientUnits) (viewBox : Bounds F) : Bounds F :=
  match units with
  | .userSpaceOnUse => viewBox
  | .objectBoundingBox => ⟨num 0, num 0, num 1, num 1⟩

/-- The length `n` of a gradient in the rectangle `box`, with the default `d`. -/
def GradLen (box : Bounds F) (attrs : List Attr) (n : String) (d : Str) (r : PercRef) (x : F) : Prop :=
  resolveUnit box ((valuesNamed n attrs).getLast?.getD d) r = .ok x

/-- The vector of a linear gradient: from (0, 0) to (100%, 0) by default. The circles of a radial gradient: centre and radius 50% by
default, the focus at the centre by default, its radius 50% by default. -/
inductive DirectionOf (box : Bounds F) (attrs : List Attr) : Str → Direction F → Prop
  | linear {x1 y1 x2 y2 : F} (h1 : GradLen box attrs "x1" "0%".toList .width x1) (h2 : GradLen box attrs "y1" "0%".toList .height y1)
      (h3 : GradLen box attrs "x2" "100%".toList .width x2) (h4 : GradLen box attrs "y2" "0".toList .height y2) :
      DirectionOf box attrs "linearGradient".toList (.linear x1 y1 x2 y2)
  | radial {cx cy fx fy r fr : F} (h1 : GradLen box attrs "cx" "50%".toList .width cx) (h2 : GradLen box attrs "cy" "50%".toList .height cy)
      (h3 : GradLen box attrs "fx" ((valuesNamed "cx" attrs).getLast?.getD "50%".toList) .width fx)
      (h4 : GradLen box attrs "fy" ((valuesNamed "cy" attrs).getLast?.getD "50%".toList) .height fy)
      (h5 : GradLen box attrs "r" "50%".toList .diag r) (h6 : GradLen box attrs "fr" "50%".toList .diag fr) :
      DirectionOf box attrs "radialGradient".toList (.radial cx cy fx fy r fr)

variable [GoEnv]

/-- The values of the property `k` of a stop: those of the attribute, then those in the (first) `style` attribute. -/
def stopValues (k : String) (attrs : List Attr) : List Str :=
  valuesNamed k attrs ++ (split ';' ((valuesNamed "style" attrs).head?.getD [])).filterMap fun piece =>
    match cut ':' piece with
    | some (key, v) => if toLower (trimSpace key) = k.toList then some (trimSpace v) else none
    | none => none

/-- A stop: at 0, opaque and without a colour by default. -/
structure StopOf (attrs : List Attr) (s : GradStop F) : Prop where
  offset : ReadLast readFraction (num 0) (valuesNamed "offset" attrs) s.offset
  opacity : ReadLast parseBasicFloat (num 1) (stopValues "stop-opacity" attrs) s.opacity
  color : ReadLast parseSVGColor none (stopValues "stop-color" attrs) s.stopColor

def noteFrame (before : List Token) (fr : List (List Token × Elem)) : Token → List (List Token × Elem)
  | .start n a => (before, ⟨n, a⟩) :: fr
  | .stop _ => fr.tail
  | _ => fr

def framesFrom (before : List Token) (fr : List (List Token × Elem)) : List Token → List (List Token × Elem)
  | [] => fr
  | t :: ts => framesFrom (before ++ [t]) (noteFrame before fr t) ts

/-- The open elements after the tokens (innermost first), each with the tokens before its start tag. -/
def framesOf (ts : List Token) : List (List Token × Elem) := framesFrom [] [] ts

/-- Neither the gradient nor an element in which it stands declares a `transform`. -/
def GradientText.Untransformed (t : GradientText) : Prop :=
  valuesOf "transform" t.attrs = [] ∧ ∀ f ∈ framesOf t.before, valuesOf "transform" f.2.attrs = []

/-- `g` is the gradient with these attributes and stops, begun when the view box was `viewBox`. -/
structure GradientOf (viewBox : Bounds F) (t : GradientText) (g : Gradient F) : Prop where
  units : g.units = unitsOf t.attrs
  spread : g.spread = spreadOf t.attrs
  matrix : valuesNamed "gradientTransform" t.attrs = [] → g.matrix = Matrix2D.identity
  transform : t.Untransformed → ∀ v, (valuesNamed "gradientTransform" t.attrs).getLast? = some v →
    (parseTransform v (initCursor (F := F) 0)).1 = .ok g.matrix
  bounds : g.bounds = viewBox
  direction : ∃ d, g.direction = some d ∧ DirectionOf (percentBox (unitsOf t.attrs) viewBox) t.attrs t.name d
  stops : List.Forall₂ StopOf t.stops g.stops

/-- The view box after reading the tokens. -/
def viewBoxAfter (fuel : Nat) (m : ErrorMode) (ts : List Token) : Bounds F :=
  match parse (F := F) fuel m ts (.error 0) with
  | .done (some s) _ _ => s.viewBox
  | _ => ⟨num 0, num 0, num 0, num 0⟩

/-! ### Paint -/

/-- `v` is `url(#id)`, white space allowed inside the parentheses. -/
def RefersTo (v id : Str) : Prop :=
  ∃ w w', Blank w ∧ Blank w' ∧ id.getLast?.all (fun c => !isSpace c) ∧ v = "url(".toList ++ (w ++ '#' :: id ++ w') ++ ")".toList

/-- The colour that stands for a paint: that of a plain paint, the first one of a gradient, black for none. -/
def paintColor : Option (Pattern F) → Color
  | some (.plain c) => c
  | some (.gradient g) => (g.stops.findSome? (·.stopColor)).getD ⟨0, 0, 0, 255⟩
  | none => ⟨0, 0, 0, 255⟩

/-- The gradient with each missing stop colour replaced by `c`, and otherwise the same. -/
def Gradient.complete (g : Gradient F) (c : Color) : Gradient F :=
  { g with stops := g.stops.map fun s => { s with stopColor := some (s.stopColor.getD c) } }

/-- The declaration `v` on an element whose start tag stands after `before` turns the paint `p` into `q`. -/
inductive PaintStep (fuel : Nat) (m : ErrorMode) (before : List Token) (p : Option (Pattern F)) (v : Str) : Option (Pattern F) → Prop
  | gradient {id : Str} {t : GradientText} {g : Gradient F} (h1 : RefersTo v id) (h2 : gradientNamed id before = some t)
      (h3 : GradientOf (viewBoxAfter fuel m t.before) t g) :
      PaintStep fuel m before p v (some (.gradient (Gradient.complete g (paintColor p))))
  | color {c : Option Color} (h1 : ∀ id, RefersTo v id → gradientNamed id before = none) (h2 : parseSVGColor v = .ok c) :
      PaintStep fuel m before p v (c.map Pattern.plain)

/-- Several declarations on one element. -/
def PaintSteps (fuel : Nat) (m : ErrorMode) (before : List Token) : List Str → Option (Pattern F) → Option (Pattern F) → Prop
  | [], p, q => q = p
  | v :: vs, p, q => ∃ p', PaintStep fuel m before p v p' ∧ PaintSteps fuel m before vs p' q

/-- `q` is the paint of kind `k` that the elements declare, from the root inwards, beginning with `p`. -/
def PaintAlong (fuel : Nat) (m : ErrorMode) (k : String) (p : Option (Pattern F)) : List (List Token × Elem) → Option (Pattern F) → Prop
  | [], q => q = p
  | (before, e) :: fr, q => ∃ r, PaintAlong fuel m k p fr r ∧ PaintSteps fuel m before (valuesOf k e.attrs) r q

/-- Fill and stroke. -/
inductive PaintKind
  | fill
  | stroke
deriving DecidableEq, Repr

/-- The property that declares the paint. -/
def PaintKind.attr : PaintKind → String
  | .fill => "fill"
  | .stroke => "stroke"

/-- The paint where nothing is declared: black to fill, none to stroke. -/
def PaintKind.initial : PaintKind → Option (Pattern F)
  | .fill => some (.plain ⟨0, 0, 0, 255⟩)
  | .stroke => none

/-- The paint in a style. -/
def PaintKind.of : PaintKind → PathStyle F → Option (Pattern F)
  | .fill, st => st.fillerColor
  | .stroke, st => st.linerColor

/-- A paint that a renderer can use: a gradient has a direction, and each of its stops has a colour. -/
def NoGaps : Option (Pattern F) → Prop
  | some (.gradient g) => (∃ d, g.direction = some d) ∧ ∀ s ∈ g.stops, ∃ c, s.stopColor = some c
  | _ => True

/-- In the document `pre`, start tag, `post`, which is read without error, the path number `i` comes from the start tag. Its only
declaration of the paint `K` refers to the gradient `t`. -/
structure PaintedBy (fuel : Nat) (m : ErrorMode) (K : PaintKind) (pre : List Token) (e : Elem) (post : List Token) (t : GradientText)
    (p : SvgPath F) : Prop where
  balanced : Balanced (pre ++ [.start e.name e.attrs])
  path : ∃ s l i, parse fuel m (pre ++ .start e.name e.attrs :: post) .eof = .done (some s) none l ∧
    DrawnBy (F := F) fuel m pre (.start e.name e.attrs) i ∧ s.svgPaths[i]? = some p
  reference : ∃ v id, valuesOf K.attr e.attrs = [v] ∧ RefersTo v id ∧ gradientNamed id pre = some t

end GoSvg.Spec
