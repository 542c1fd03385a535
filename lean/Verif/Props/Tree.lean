import Verif.Lemmas.GradTotal
import Verif.Lemmas.MaskRun
import Verif.Lemmas.Moved
import Verif.Lemmas.ShiftDoc
import Verif.Lemmas.UseTable
import Verif.Props.ArcPaths
import Verif.Props.Computed
import Verif.Props.Corners
import Verif.Props.Parsing
import Verif.Props.RootBox
import Verif.Props.Stops

/-! C85: documents of groups, shapes, gradients, uses and masks are accepted and stored as what the tree says, in exact arithmetic. -/

namespace GoSvg.Spec

/-- How a figure is painted, and where. -/
structure Look where
  fill : Option (Pattern ℝ)
  stroke : Option (Pattern ℝ)
  fillOpacity : ℝ
  strokeOpacity : ℝ
  width : ℝ
  miter : ℝ
  dash : List ℝ
  dashOffset : ℝ
  nonzero : Bool
  cap : CapMode
  leadCap : CapMode
  join : JoinMode
  gap : GapMode
  place : P2 → P2
  masks : List Str := []

/-- The look of a document without declarations. (That of the code: the width, the join and the miter limit are not those of SVG, see C64.) -/
def Look.initial : Look where
  fill := some (.plain ⟨0, 0, 0, 255⟩)
  stroke := none
  fillOpacity := 1
  strokeOpacity := 1
  width := 2
  miter := 4
  dash := []
  dashOffset := 0
  nonzero := true
  cap := .butt
  leadCap := .nilCap
  join := .bevel
  gap := .nilGap
  place := id

/-- The properties that change a look, and `mask`. -/
def looks : List String := ["fill", "stroke", "fill-rule", "stroke-linecap", "stroke-leadlinecap", "stroke-linejoin", "stroke-linegap",
  "stroke-miterlimit", "stroke-width", "stroke-dashoffset", "stroke-dasharray", "opacity", "fill-opacity", "stroke-opacity", "transform", "mask"]

/-- The gradients of a document by name. -/
abbrev Palette := Str → Option (Gradient ℝ)

/-- What one declaration of an element makes of a look. `parent` is the look around the element, `vb` the view box. On the root there are no
percentages (`C63_root_percent_false`). Transforms are those that the code composes in the right order (as in `TransformedBy`); the dash array
`none` only where there is no other (`C26_dash_false`); at most three masks (`C29_fourth_mask_false`). `E` are the gradients above the element. -/
inductive Declares [GoEnv] (root : Bool) (vb : Bounds ℝ) (E : Palette) (parent : Look) : Str × Str → Look → Look → Prop
  | fill {v col l} : PaintText v col → Declares root vb E parent ("fill".toList, v) l { l with fill := col.map .plain }
  | stroke {v col l} : PaintText v col → Declares root vb E parent ("stroke".toList, v) l { l with stroke := col.map .plain }
  | fillUrl {v id g l} : RefersTo v id → E id = some g → Declares root vb E parent ("fill".toList, v) l { l with fill := some (.gradient g) }
  | strokeUrl {v id g l} : RefersTo v id → E id = some g → Declares root vb E parent ("stroke".toList, v) l { l with stroke := some (.gradient g) }
  | rule {v x l} : keyword fillRules v = some x → Declares root vb E parent ("fill-rule".toList, v) l { l with nonzero := x }
  | cap {v x l} : keyword caps v = some x → Declares root vb E parent ("stroke-linecap".toList, v) l { l with cap := x }
  | leadCap {v x l} : keyword caps v = some x → Declares root vb E parent ("stroke-leadlinecap".toList, v) l { l with leadCap := x }
  | join {v x l} : keyword joins v = some x → Declares root vb E parent ("stroke-linejoin".toList, v) l { l with join := x }
  | gap {v x l} : keyword gaps v = some x → Declares root vb E parent ("stroke-linegap".toList, v) l { l with gap := x }
  | miter {v x l} : NumberText v x → Declares root vb E parent ("stroke-miterlimit".toList, v) l { l with miter := x }
  | width {v x l} : LengthText vb .width v x → (root = true → '%' ∉ v) → Declares root vb E parent ("stroke-width".toList, v) l { l with width := x }
  | dashOffset {v x l} : LengthText vb .diag v x → (root = true → '%' ∉ v) →
      Declares root vb E parent ("stroke-dashoffset".toList, v) l { l with dashOffset := x }
  | dash {d : CommaList} {xs l} : d.WF → d.text ≠ "none".toList → List.Forall₂ (fun i x => LengthText vb .diag i.2 x) d.items xs →
      (root = true → ∀ i ∈ d.items, '%' ∉ i.2) → Declares root vb E parent ("stroke-dasharray".toList, d.text) l { l with dash := xs }
  | noDash {l} : l.dash = [] → Declares root vb E parent ("stroke-dasharray".toList, "none".toList) l l
  | opacity {v x l} : NumberText v x →
      Declares root vb E parent ("opacity".toList, v) l { l with fillOpacity := l.fillOpacity * x, strokeOpacity := l.strokeOpacity * x }
  | fillOpacity {v x l} : NumberText v x → Declares root vb E parent ("fill-opacity".toList, v) l { l with fillOpacity := l.fillOpacity * x }
  | strokeOpacity {v x l} : NumberText v x → Declares root vb E parent ("stroke-opacity".toList, v) l { l with strokeOpacity := l.strokeOpacity * x }
  | transforms {l} {ts : List (FnText ℝ)} {fs} : parent.place = id → (∀ t ∈ ts, t.WF) → MeansList ts fs → ReadRight ts →
      Declares root vb E parent ("transform".toList, listText ts []) l { l with place := applyList fs }
  | transform {l} {t : FnText ℝ} {f : Fn} : t.WF → Means t.name t.nums f → Basic t →
      (∀ M : Matrix2D ℝ, (∀ p, affine M p = parent.place p) → Composes M f) →
      Declares root vb E parent ("transform".toList, t.text) l { l with place := parent.place ∘ f.apply }
  | mask {id l} : ')' ∉ id → l.masks.length < 3 →
      Declares root vb E parent ("mask".toList, "url(#".toList ++ id ++ ")".toList) l { l with masks := l.masks ++ [id] }
  | other {k v l} : (∀ n ∈ looks, k ≠ n.toList) → Declares root vb E parent (k, v) l l

/-- What the declarations make of a look, one after the other. -/
inductive DeclaresAll [GoEnv] (root : Bool) (vb : Bounds ℝ) (E : Palette) (parent : Look) : List (Str × Str) → Look → Look → Prop
  | nil {l} : DeclaresAll root vb E parent [] l l
  | cons {d ds l l' l''} : Declares root vb E parent d l l' → DeclaresAll root vb E parent ds l' l'' → DeclaresAll root vb E parent (d :: ds) l l''

/-- A length of an element: what its attribute says, zero without it. -/
inductive Measures (vb : Bounds ℝ) (attrs : List Attr) (n : String) (ref : PercRef) : ℝ → Prop
  | given {v x} : Given attrs n v → LengthText vb ref v x → Measures vb attrs n ref x
  | absent : (∀ v, ¬ Given attrs n v) → Measures vb attrs n ref 0

/-- The radii of a circle or an ellipse. -/
inductive HasRadii (vb : Bounds ℝ) (attrs : List Attr) : ℝ → ℝ → Prop
  | one {r} : Measures vb attrs "r" .diag r → (∀ v, ¬ Given attrs "rx" v) → (∀ v, ¬ Given attrs "ry" v) → HasRadii vb attrs r r
  | two {rx ry} : Measures vb attrs "rx" .width rx → Measures vb attrs "ry" .height ry → (∀ v, ¬ Given attrs "r" v) → HasRadii vb attrs rx ry

/-- The place, the size and the radii of a rectangle. -/
structure HasBox (vb : Bounds ℝ) (attrs : List Attr) (x y w h rx ry : ℝ) : Prop where
  x : Measures vb attrs "x" .width x
  y : Measures vb attrs "y" .height y
  w : Measures vb attrs "width" .width w
  h : Measures vb attrs "height" .height h
  rx : Measures vb attrs "rx" .width rx
  ry : Measures vb attrs "ry" .height ry

/-- The numbers of a text, in any layout and spelling. -/
def NumbersText [GoEnv] (v : Str) (rs : List ℝ) : Prop := ∃ l : GroupList, v = l.text ∧ l.WF ∧ rs = l.numbers.map fun n => (n.value : ℝ)

/-- The outlines that are right for a figure, and whether they are stored with their own points or within 5/64 of them; and the offsets of a
`use` with which it is drawn right. -/
structure Figure where
  outline : List (GOp ℝ) → Prop
  rounded : Bool := false
  fits : ℝ → ℝ → Prop := fun _ _ => True

/-- The figure, moved by (a, b). -/
def Figure.moved (f : Figure) (a b : ℝ) : Figure where
  outline G := ∃ G0, f.outline G0 ∧ G = G0.map (GOp.moved a b)
  rounded := f.rounded

/-- The figures that an element with these attributes is: one, or none. -/
inductive Figures [GoEnv] (vb : Bounds ℝ) : Str → List Attr → List Figure → Prop
  | line {attrs x1 y1 x2 y2} : Measures vb attrs "x1" .width x1 → Measures vb attrs "y1" .height y1 → Measures vb attrs "x2" .width x2 →
      Measures vb attrs "y2" .height y2 → Figures vb "line".toList attrs [{ outline := fun G => G = [.moveTo (x1, y1), .lineTo (x2, y2)] }]
  | rect {attrs x y w h rx ry} : HasBox vb attrs x y w h rx ry → w ≠ 0 → h ≠ 0 → rx ≤ 0 → ry ≤ 0 →
      Figures vb "rect".toList attrs
        [{ outline := fun G => G = [.moveTo (x, y), .lineTo (x + w, y), .lineTo (x + w, y + h), .lineTo (x, y + h), .close] }]
  | round {attrs x y w h rx ry r} : HasBox vb attrs x y w h rx ry → 0 < w → 0 < h → 0 < rx → 0 < ry → r = min rx (w / 2) → r = min ry (h / 2) →
      1 / 64 ≤ r → r ≤ 2 ^ 19 → |x| ≤ 2 ^ 20 → |y| ≤ 2 ^ 20 → w ≤ 2 ^ 20 → h ≤ 2 ^ 20 →
      Figures vb "rect".toList attrs [{ outline := RoundedRect x y w h r, rounded := true, fits := fun a b => |x + a| ≤ 2 ^ 20 ∧ |y + b| ≤ 2 ^ 20 }]
  | noRect {attrs x y w h rx ry} : HasBox vb attrs x y w h rx ry → w = 0 ∨ h = 0 → Figures vb "rect".toList attrs []
  | ellipse {name attrs cx cy rx ry} : name = "circle".toList ∨ name = "ellipse".toList → Measures vb attrs "cx" .width cx →
      Measures vb attrs "cy" .height cy → HasRadii vb attrs rx ry → rx ≠ 0 → ry ≠ 0 →
      Figures vb name attrs [{ outline := (fun G => ∃ cs, Follows ⟨cx, cy, rx, ry, 0⟩ 0 (-(2 * Real.pi)) 17 cs ∧
        G = .moveTo (cx + rx, cy) :: cs.map (fun b => .cubicTo b.p1 b.p2 b.p3) ++ [.close]) }]
  | noEllipse {name attrs cx cy rx ry} : name = "circle".toList ∨ name = "ellipse".toList → Measures vb attrs "cx" .width cx →
      Measures vb attrs "cy" .height cy → HasRadii vb attrs rx ry → rx = 0 ∨ ry = 0 → Figures vb name attrs []
  | poly {closed : Bool} {attrs p pts v} : Given attrs "points" v → NumbersText v (coords (p :: pts)) → 2 ≤ pts.length →
      Figures vb (if closed then "polygon" else "polyline").toList attrs
        [{ outline := fun G => G = .moveTo p :: pts.map .lineTo ++ (if closed then [.close] else []) }]
  | path {attrs pre cmds} {ts : List Str} : (∀ ch ∈ pre, GoEnv.isLetter ch = false) → List.Forall₂ ACmd.WrittenAs cmds ts → AStarts false cmds →
      ProperArcs ⟨(0, 0), (0, 0), .none⟩ cmds → cmds ≠ [] → Given attrs "d" (pre ++ ts.flatten) →
      Figures vb "path".toList attrs [{ outline := StandFor ⟨(0, 0), (0, 0), .none⟩ cmds, fits := fun a b => (a = 0 ∧ b = 0) ∨ ∀ k ∈ cmds, k.IsPlain }]

/-- What the last of the texts says, where all can be read; `d` if there is none. -/
inductive Says {α : Type} (R : Str → α → Prop) (d : α) : List Str → α → Prop
  | absent : Says R d [] d
  | given {vs v x} : (∀ u ∈ vs, ∃ y, R u y) → R v x → Says R d (vs ++ [v]) x

/-- The vector of a linear gradient, the circles of a radial one. (The radius of the focus without `fr` is that of the code, SVG says 0.) -/
inductive HasDirection (box : Bounds ℝ) (attrs : List Attr) : Bool → Direction ℝ → Prop
  | linear {x1 y1 x2 y2} : Says (LengthText box .width) 0 (valuesNamed "x1" attrs) x1 → Says (LengthText box .height) 0 (valuesNamed "y1" attrs) y1 →
      Says (LengthText box .width) (refLength box .width) (valuesNamed "x2" attrs) x2 → Says (LengthText box .height) 0 (valuesNamed "y2" attrs) y2 →
      HasDirection box attrs false (.linear x1 y1 x2 y2)
  | radial {cx cy fx fy r fr} : Says (LengthText box .width) (refLength box .width / 2) (valuesNamed "cx" attrs) cx →
      Says (LengthText box .height) (refLength box .height / 2) (valuesNamed "cy" attrs) cy → Says (LengthText box .width) cx (valuesNamed "fx" attrs) fx →
      Says (LengthText box .height) cy (valuesNamed "fy" attrs) fy → Says (LengthText box .diag) (refLength box .diag / 2) (valuesNamed "r" attrs) r →
      Says (LengthText box .diag) (refLength box .diag / 2) (valuesNamed "fr" attrs) fr → HasDirection box attrs true (.radial cx cy fx fy r fr)

/-- The transform of a gradient, where the code reads it right: no other transforms around it (`C64_transform_false`). -/
inductive HasMatrix [GoEnv] (l : Look) (attrs : List Attr) (m : Matrix2D ℝ) : Prop
  | absent : valuesNamed "gradientTransform" attrs = [] → (∀ p, affine m p = p) → HasMatrix l attrs m
  | given {ts : List (FnText ℝ)} {last fs} : valuesNamed "gradientTransform" attrs = [listText ts last] → Blank last → l.place = id → (∀ t ∈ ts, t.WF) →
      MeansList ts fs → ReadRight ts → (∀ p, affine m p = applyList fs p) → HasMatrix l attrs m

/-- A gradient element with these attributes, inside the look `l`, with these stops. No references to other gradients. -/
structure IsGradient [GoEnv] (vb : Bounds ℝ) (l : Look) (radial : Bool) (attrs : List Attr) (stops : List (GradStop ℝ)) (g : Gradient ℝ) : Prop where
  direction : ∃ d, g.direction = some d ∧ HasDirection (percentBox (unitsOf attrs) vb) attrs radial d
  stops : g.stops = stops
  bounds : g.bounds = vb
  matrix : HasMatrix l attrs g.matrix
  spread : g.spread = spreadOf attrs
  units : g.units = unitsOf attrs
  own : valuesNamed "href" attrs = []

/-- A stop. Its colour is given. -/
structure HasStop [GoEnv] (attrs : List Attr) (s : GradStop ℝ) : Prop where
  offset : Says FractionText 0 (valuesNamed "offset" attrs) s.offset
  opacity : Says NumberText 1 (stopValues "stop-opacity" attrs) s.opacity
  color : Says PaintText none (stopValues "stop-color" attrs) s.stopColor
  some : s.stopColor ≠ none

/-- The content of a gradient: text and comments, and stops. -/
inductive StopNode
  | misc (t : Token)
  | stop (attrs : List Attr) (inner : List Token)

def StopNode.tokens : StopNode → List Token
  | .misc t => [t]
  | .stop attrs inner => .start "stop".toList attrs :: (inner ++ [.stop "stop".toList])

/-- The stops of a gradient. -/
inductive Stops [GoEnv] (vb : Bounds ℝ) (l : Look) : List StopNode → List (GradStop ℝ) → Prop
  | nil : Stops vb l [] []
  | misc {t ns ss} : NoTags [t] → Stops vb l ns ss → Stops vb l (.misc t :: ns) ss
  | stop {attrs l' inner s ns ss} : DeclaresAll false vb (fun _ => none) l (declared attrs) l l' → NoTags inner → HasStop attrs s → Stops vb l ns ss →
      Stops vb l (.stop attrs inner :: ns) (s :: ss)

/-- The content of a group, in order: text and comments, titles and descriptions, groups, shapes (with text and comments inside), gradients,
definitions, uses of them, and masks. -/
inductive Nodes
  | nil
  | misc (t : Token) (next : Nodes)
  | note (desc : Bool) (attrs : List Attr) (inner : List Token) (next : Nodes)
  | group (attrs : List Attr) (kids : Nodes) (next : Nodes)
  | shape (name : Str) (attrs : List Attr) (inner : List Token) (next : Nodes)
  | gradient (radial : Bool) (attrs : List Attr) (body : List StopNode) (next : Nodes)
  | defs (attrs : List Attr) (kids : Nodes) (next : Nodes)
  | use (attrs : List Attr) (inner : List Token) (next : Nodes)
  | mask (attrs : List Attr) (kids : Nodes) (next : Nodes)

/-- The name of a gradient element. -/
def gradName (radial : Bool) : Str := (if radial then "radialGradient" else "linearGradient").toList

/-- The tokens of a content. -/
def Nodes.tokens : Nodes → List Token
  | .nil => []
  | .misc t next => t :: next.tokens
  | .note desc attrs inner next => .start (if desc then "desc" else "title").toList attrs ::
      (inner ++ .stop (if desc then "desc" else "title").toList :: next.tokens)
  | .group attrs kids next => .start "g".toList attrs :: (kids.tokens ++ .stop "g".toList :: next.tokens)
  | .shape name attrs inner next => .start name attrs :: (inner ++ .stop name :: next.tokens)
  | .gradient radial attrs body next => .start (gradName radial) attrs :: (body.flatMap StopNode.tokens ++ .stop (gradName radial) :: next.tokens)
  | .defs attrs kids next => .start "defs".toList attrs :: (kids.tokens ++ .stop "defs".toList :: next.tokens)
  | .use attrs inner next => .start "use".toList attrs :: (inner ++ .stop "use".toList :: next.tokens)
  | .mask attrs kids next => .start "mask".toList attrs :: (kids.tokens ++ .stop "mask".toList :: next.tokens)

/-- The text of tokens: their character data. -/
def textOf (ts : List Token) : Str := ts.flatMap fun | .chars s => s | _ => []

/-- The texts of the titles, or of the descriptions, in order. -/
def Nodes.texts (d : Bool) : Nodes → List Str
  | .nil => []
  | .misc _ next => next.texts d
  | .note desc _ inner next => if desc = d then textOf inner :: next.texts d else next.texts d
  | .group _ kids next => kids.texts d ++ next.texts d
  | .shape _ _ _ next => next.texts d
  | .gradient _ _ _ next => next.texts d
  | .defs _ _ next => next.texts d
  | .use _ _ next => next.texts d
  | .mask _ kids next => kids.texts d ++ next.texts d

/-- A length of the root element, without percentages. -/
inductive Sized (attrs : List Attr) (n : String) : ℝ → Prop
  | given {v x} : Given attrs n v → LengthText ⟨0, 0, 0, 0⟩ .width v x → '%' ∉ v → Sized attrs n x
  | absent : (∀ v, ¬ Given attrs n v) → Sized attrs n 0

/-- The view box of the root element: the one it says, and its width and height instead of a missing or zero one. -/
inductive RootBox [GoEnv] (attrs : List Attr) : Bounds ℝ → Prop
  | given {v x y w h W H} : Given attrs "viewBox" v → NumbersText v [x, y, w, h] → Sized attrs "width" W → Sized attrs "height" H →
      RootBox attrs ⟨x, y, if w = 0 then W else w, if h = 0 then H else h⟩
  | absent {W H} : (∀ v, ¬ Given attrs "viewBox" v) → Sized attrs "width" W → Sized attrs "height" H → RootBox attrs ⟨0, 0, W, H⟩

/-- The gradients after one more with these attributes. -/
def Palette.define (E : Palette) (attrs : List Attr) (g : Gradient ℝ) : Palette := fun id => if id ∈ valuesNamed "id" attrs then some g else E id

/-- A mask: its region and what it shows. -/
structure Stencil where
  x : ℝ
  y : ℝ
  w : ℝ
  h : ℝ
  shown : List (Look × Figure)

/-- What has a name: gradients, definitions and masks. -/
structure Names where
  grads : Palette := fun _ => none
  defs : Definitions := {}
  masks : Str → Option Stencil := fun _ => none

/-- One more gradient. -/
def Names.define (E : Names) (attrs : List Attr) (g : Gradient ℝ) : Names := { E with grads := E.grads.define attrs g }

/-- One more mask. -/
def Names.mask (E : Names) (id : Str) (k : Stencil) : Names := { E with masks := fun i => if i = id then some k else E.masks i }

/-- One more element in the definitions. -/
def Names.record (E : Names) (name : Str) (attrs : List Attr) : Names :=
  let s := if lastNamed "id" attrs = [] then E.defs else E.defs.close
  { E with defs := ⟨s.done, s.open_ ++ [⟨lastNamed "id" attrs, name, attrs⟩]⟩ }

/-- The end of a group in the definitions. -/
def Names.endGroup (E : Names) : Names := { E with defs := ⟨E.defs.done, E.defs.open_ ++ [endOfGroup]⟩ }

/-- The end of the definitions. -/
def Names.close (E : Names) : Names := { E with defs := E.defs.close }

/-- Definitions: nothing of them is shown, the gradients and the elements get names. -/
inductive Defines [GoEnv] (vb : Bounds ℝ) : Look → Names → Nodes → Names → Prop
  | nil {l E} : Defines vb l E .nil E
  | misc {l E t next E'} : NoTags [t] → Defines vb l E next E' → Defines vb l E (.misc t next) E'
  | note {l l' E desc attrs inner next E'} : DeclaresAll false vb E.grads l (declared attrs) l l' → NoTags inner →
      Defines vb l (E.record (if desc then "desc" else "title").toList attrs) next E' → Defines vb l E (.note desc attrs inner next) E'
  | group {l l' E attrs kids E' next E''} : DeclaresAll false vb E.grads l (declared attrs) l l' → Defines vb l' (E.record "g".toList attrs) kids E' →
      Defines vb l E'.endGroup next E'' → Defines vb l E (.group attrs kids next) E''
  | shape {l l' E name attrs inner next E'} : name ∈ shapeTags → DeclaresAll false vb E.grads l (declared attrs) l l' → NoTags inner →
      Defines vb l (E.record name attrs) next E' → Defines vb l E (.shape name attrs inner next) E'
  | gradient {l l' E radial attrs body stops g next E'} : DeclaresAll false vb E.grads l (declared attrs) l l' → Stops vb l' body stops →
      IsGradient vb l' radial attrs stops g → Defines vb l (E.define attrs g) next E' → Defines vb l E (.gradient radial attrs body next) E'

/-- A definition of one shape, in groups or not, whose declarations change nothing of the look: others have no effect (`C86_style_false`), and
several shapes are one (`C86_parts_false`). -/
inductive Sole [GoEnv] (vb : Bounds ℝ) (E : Palette) (l : Look) (name : Str) (attrs : List Attr) : List Definition → Prop
  | shape {id} : DeclaresAll false vb E l (declared attrs) l l → Sole vb E l name attrs [⟨id, name, attrs⟩]
  | group {id as ds} : DeclaresAll false vb E l (declared as) l l → Sole vb E l name attrs ds →
      Sole vb E l name attrs (⟨id, "g".toList, as⟩ :: (ds ++ [endOfGroup]))

/-- The name of a mask, empty without an `id`. -/
def MaskNamed (attrs : List Attr) (id : Str) : Prop := (Given attrs "id" id ∧ id ≠ []) ∨ (id = [] ∧ ∀ v, ¬ Given attrs "id" v)

/-- What a content shows inside a look: every shape with its own look, in the order of the document; a `use` shows the shape of its definition, moved,
in the look of the `use`; what is in a mask is shown by the mask only, and there are no masks in masks (`C45_nested_mask_false`).
`E` are the names above the content, then those after it. -/
inductive Shows [GoEnv] (vb : Bounds ℝ) : Look → Names → Nodes → Names → List (Look × Figure) → Prop
  | nil {l E} : Shows vb l E .nil E []
  | misc {l E t next E' js} : NoTags [t] → Shows vb l E next E' js → Shows vb l E (.misc t next) E' js
  | note {l l' E desc attrs inner next E' js} : DeclaresAll false vb E.grads l (declared attrs) l l' → NoTags inner → Shows vb l E next E' js →
      Shows vb l E (.note desc attrs inner next) E' js
  | group {l l' E attrs kids E' next E'' is js} : DeclaresAll false vb E.grads l (declared attrs) l l' → Shows vb l' E kids E' is →
      Shows vb l E' next E'' js → Shows vb l E (.group attrs kids next) E'' (is ++ js)
  | shape {l l' E name attrs inner fs next E' js} : Distinct attrs → DeclaresAll false vb E.grads l (declared attrs) l l' → Figures vb name attrs fs →
      NoTags inner → Shows vb l E next E' js → Shows vb l E (.shape name attrs inner next) E' (fs.map (fun f => (l', f)) ++ js)
  | gradient {l l' E radial attrs body stops g next E' js} : DeclaresAll false vb E.grads l (declared attrs) l l' → Stops vb l' body stops →
      IsGradient vb l' radial attrs stops g → Shows vb l (E.define attrs g) next E' js → Shows vb l E (.gradient radial attrs body next) E' js
  | defs {l l' E attrs kids E' next E'' js} : DeclaresAll false vb E.grads l (declared attrs) l l' → Defines vb l' E kids E' →
      Shows vb l E'.close next E'' js → Shows vb l E (.defs attrs kids next) E'' js
  | use {l l' E attrs id ds name as fs x y inner next E' js} : Distinct attrs → DeclaresAll false vb E.grads l (declared attrs) l l' →
      refOf attrs = some id → E.defs.done.lookup id = some ds → Sole vb E.grads l' name as ds → Distinct as → Figures vb name as fs →
      Measures vb attrs "x" .width x → Measures vb attrs "y" .height y → (∀ f ∈ fs, f.fits x y) → NoTags inner → Shows vb l E next E' js →
      Shows vb l E (.use attrs inner next) E' (fs.map (fun f => (l', f.moved x y)) ++ js)
  | mask {l l' E attrs id x y w h kids E' is next E'' js} : Distinct attrs → DeclaresAll false vb E.grads l (declared attrs) l l' → MaskNamed attrs id →
      Measures vb attrs "x" .width x → Measures vb attrs "y" .height y → Measures vb attrs "width" .width w → Measures vb attrs "height" .height h →
      (∀ as, .start "mask".toList as ∉ kids.tokens) → .stop "mask".toList ∉ kids.tokens → Shows vb l' E kids E' is →
      Shows vb l (E'.mask id ⟨x, y, w, h, is⟩) next E'' js → Shows vb l E (.mask attrs kids next) E'' js

/-- The style of a path is the look, masks aside. -/
structure SameLook (st : PathStyle ℝ) (l : Look) : Prop where
  fill : st.fillerColor = l.fill
  stroke : st.linerColor = l.stroke
  fillOpacity : st.fillOpacity = l.fillOpacity
  strokeOpacity : st.lineOpacity = l.strokeOpacity
  width : st.lineWidth = l.width
  miter : st.join.miterLimit = toFix l.miter
  dash : st.dash.dash = l.dash
  dashOffset : st.dash.dashOffset = l.dashOffset
  nonzero : st.useNonZeroWinding = l.nonzero
  cap : st.join.trailLineCap = l.cap
  leadCap : st.join.leadLineCap = l.leadCap
  join : st.join.lineJoin = l.join
  gap : st.join.lineGap = l.gap
  place : ∀ p, affine st.transform p = l.place p

/-- The style of a path is the look; `mem` is the memory of the mask lists. -/
structure Realises (mem : List (List Str)) (st : PathStyle ℝ) (l : Look) : Prop extends SameLook st l where
  masks : st.masks.read mem = l.masks

/-- A path of the drawing is the figure in its look. -/
structure Depicts (mem : List (List Str)) (q : SvgPath ℝ) (i : Look × Figure) : Prop where
  look : Realises mem q.style i.1
  outline : ∃ G, i.2.outline G ∧ if i.2.rounded then List.Forall₂ (OpWithin (5 / 64)) q.path G else q.path = G.map (GOp.store toFix 0 0)

/-- The masks of a drawing are those with names, and no others. -/
def MasksAre (s : Svg ℝ) (masks : Str → Option Stencil) : Prop := ∀ id, match masks id with
  | none => s.svgMasks.find id = none
  | some k => ∃ m : SvgMask ℝ, s.svgMasks.find id = some m ∧ m.id = id ∧ m.x = k.x ∧ m.y = k.y ∧ m.w = k.w ∧ m.h = k.h ∧
      List.Forall₂ (Depicts s.arrays) m.svgPaths k.shown

end GoSvg.Spec

namespace GoSvg

open Spec SM

variable [GoEnv]

/-! ### Declarations -/

omit [GoEnv] in
theorem looks_ne {k : Str} (h : ∀ n ∈ looks, k ≠ n.toList) {svg : Svg ℝ} {st : PathStyle ℝ} {v : Str} [GoEnv] : styleEff svg st k v = .set (.ok st) := by
  have e : ∀ n ∈ looks, k ≠ n.toList := h
  simp only [looks, List.mem_cons, List.not_mem_nil, or_false, forall_eq_or_imp, forall_eq] at e
  obtain ⟨e1, e2, e3, e4, e5, e6, e7, e8, e9, e10, e11, e12, e13, e14, e15, e16⟩ := e
  unfold styleEff
  rw [if_neg e1, if_neg e3, if_neg e2, if_neg e7, if_neg e5, if_neg e4, if_neg e6, if_neg e8, if_neg e9, if_neg e10, if_neg e11,
    if_neg (by rintro (h | h | h); exacts [e12 h, e14 h, e13 h]), if_neg e15, if_neg e16]

theorem set_run {st st' : PathStyle ℝ} {k v : Str} {c : Cursor ℝ} (h : styleEff c.svg st k v = .set (.ok st')) :
    readStyleAttr st k v c = (.ok st', c) := by
  rw [readStyleAttr_eff, h]; rfl

theorem length_at {root : Bool} {vb : Bounds ℝ} {c : Cursor ℝ} (hb : root = true ∨ c.svg.viewBox = vb) {ref : PercRef} {v : Str} {x : ℝ}
    (h : LengthText vb ref v x) (hp : root = true → '%' ∉ v) : resolveUnit c.svg.viewBox v ref = .ok x := by
  rcases hb with hb | hb
  · exact lengthText_read (lengthText_box h (hp hb) _)
  · rw [hb]; exact lengthText_read h

theorem transform_run {v : Str} {m : Matrix2D ℝ} {st : PathStyle ℝ} {c : Cursor ℝ}
    (h : (parseTransform v c).1 = .ok m) : ∃ c', readStyleAttr st "transform".toList v c = (.ok { st with transform := m }, c') := by
  rw [readStyleAttr_eff, styleEff_transform.2 rfl, runEff, SM.bind_run]
  rcases hr : parseTransform v c with ⟨r, c'⟩
  rw [hr] at h
  dsimp only at h
  subst h
  exact ⟨c', rfl⟩

omit [GoEnv] in
theorem identity_of {M : Matrix2D ℝ} (h : ∀ p, affine M p = p) : M = Matrix2D.identity := by
  have i0 := h (0, 0)
  have i1 := h (1, 0)
  have i2 := h (0, 1)
  simp only [affine, Prod.mk.injEq, mul_zero, mul_one, zero_add, add_zero] at i0 i1 i2
  apply Matrix2D.ext' <;> simp only [Matrix2D.identity, real_num] <;> norm_num <;> linarith [i0.1, i0.2, i1.1, i1.2, i2.1, i2.2]

omit [GoEnv] in
theorem matrix_of {M N : Matrix2D ℝ} (h : ∀ p, affine M p = affine N p) : M = N := by
  have i0 := h (0, 0)
  have i1 := h (1, 0)
  have i2 := h (0, 1)
  simp only [affine, Prod.mk.injEq, mul_zero, mul_one, zero_add, add_zero] at i0 i1 i2
  apply Matrix2D.ext' <;> linarith [i0.1, i0.2, i1.1, i1.2, i2.1, i2.2]

/-- The gradients of the palette are stored, and have no gaps. -/
def Knows (E : Palette) (s : Svg ℝ) : Prop := ∀ id g, E id = some g → (∀ st ∈ g.stops, st.stopColor ≠ none) ∧
  ∃ addr, s.grads.find id = some addr ∧ s.gradHeap[addr]? = some g

omit [GoEnv] in
theorem knows_none {s : Svg ℝ} : Knows (fun _ => none) s := fun _ _ h => nomatch h

omit [GoEnv] in
theorem knows_same {E : Palette} {s s' : Svg ℝ} (h : Knows E s) (h1 : s'.grads = s.grads) (h2 : s'.gradHeap = s.gradHeap) : Knows E s' := by
  intro id g hg
  rw [h1, h2]; exact h id g hg

theorem knows_url {E : Palette} {s : Svg ℝ} (h : Knows E s) {v id : Str} {g : Gradient ℝ} (hv : RefersTo v id) (hg : E id = some g) (p : Option (Pattern ℝ)) :
    readGradURL s v p = some g := by
  obtain ⟨w, w', hw, hw', hid, rfl⟩ := hv
  obtain ⟨hn, addr, h1, h2⟩ := h id g hg
  rw [C61_gradient_url s p id hid hw hw', h1, Option.bind_some, h2, Option.map_some]
  have : localizeGrad g p = g := by
    unfold localizeGrad
    rw [if_neg]
    rw [List.any_eq_true]
    rintro ⟨x, hx, hx'⟩
    exact hn x hx (Option.isNone_iff_eq_none.1 hx')
  rw [this]

/-- One declaration is read. -/
theorem declares_read {root : Bool} {vb : Bounds ℝ} {E : Palette} {parent l l' : Look} {d : Str × Str} (h : Declares root vb E parent d l l')
    {st top : PathStyle ℝ} {rest : List (PathStyle ℝ)} {c : Cursor ℝ} (hb : root = true ∨ c.svg.viewBox = vb) (hE : Knows E c.svg) (hs : c.styleStack = top :: rest) (ht : SameLook top parent)
    (hl : SameLook st l) : ∃ st' c', readStyleAttr st d.1 d.2 c = (.ok st', c') ∧ SameLook st' l' := by
  cases h with
  | @fill v col l h =>
    obtain ⟨h1, h2⟩ := paintText_read h
    refine ⟨{ st with fillerColor := col.map .plain }, c, set_run (k := "fill".toList) ?_, { hl with fill := rfl }⟩
    unfold styleEff
    rw [if_pos rfl, readGradURL_plain h2, h1]; rfl
  | @stroke v col l h =>
    obtain ⟨h1, h2⟩ := paintText_read h
    refine ⟨{ st with linerColor := col.map .plain }, c, set_run (k := "stroke".toList) ?_, { hl with stroke := rfl }⟩
    unfold styleEff
    rw [if_neg (by decide), if_neg (by decide), if_pos rfl, readGradURL_plain h2, h1]; rfl
  | @fillUrl v id g l h1 h2 =>
    refine ⟨{ st with fillerColor := some (.gradient g) }, c, set_run (k := "fill".toList) ?_, { hl with fill := rfl }⟩
    unfold styleEff
    rw [if_pos rfl, knows_url hE h1 h2]
  | @strokeUrl v id g l h1 h2 =>
    refine ⟨{ st with linerColor := some (.gradient g) }, c, set_run (k := "stroke".toList) ?_, { hl with stroke := rfl }⟩
    unfold styleEff
    rw [if_neg (by decide), if_neg (by decide), if_pos rfl, knows_url hE h1 h2]
  | @rule v x l h =>
    refine ⟨{ st with useNonZeroWinding := x }, c, set_run (k := "fill-rule".toList) ?_, { hl with nonzero := rfl }⟩
    unfold styleEff
    rw [if_neg (by decide), if_pos rfl]
    unfold fillRules at h
    simp only [keyword_cons, keyword_nil] at h
    split at h
    · rename_i e; rw [if_pos e]; cases h; rfl
    · rename_i e
      rw [if_neg e]
      split at h
      · rename_i e'; rw [if_pos e']; cases h; rfl
      · cases h
  | @cap v x l h =>
    refine ⟨{ st with join := { st.join with trailLineCap := x } }, c, set_run (k := "stroke-linecap".toList) ?_, { hl with cap := rfl }⟩
    unfold styleEff
    repeat rw [if_neg (by decide)]
    rw [if_pos rfl, caps_read, h]
  | @leadCap v x l h =>
    refine ⟨{ st with join := { st.join with leadLineCap := x } }, c, set_run (k := "stroke-leadlinecap".toList) ?_, { hl with leadCap := rfl }⟩
    unfold styleEff
    repeat rw [if_neg (by decide)]
    rw [if_pos rfl, caps_read, h]
  | @join v x l h =>
    refine ⟨{ st with join := { st.join with lineJoin := x } }, c, set_run (k := "stroke-linejoin".toList) ?_, { hl with join := rfl }⟩
    unfold styleEff
    repeat rw [if_neg (by decide)]
    rw [if_pos rfl, joins_read, h]
  | @gap v x l h =>
    refine ⟨{ st with join := { st.join with lineGap := x } }, c, set_run (k := "stroke-linegap".toList) ?_, { hl with gap := rfl }⟩
    unfold styleEff
    repeat rw [if_neg (by decide)]
    rw [if_pos rfl, gaps_read, h]
  | @miter v x l h =>
    refine ⟨{ st with join := { st.join with miterLimit := toFix x } }, c, set_run (k := "stroke-miterlimit".toList) ?_, { hl with miter := rfl }⟩
    unfold styleEff
    repeat rw [if_neg (by decide)]
    rw [if_pos rfl, numberText_read h]; rfl
  | @width v x l h hp =>
    refine ⟨{ st with lineWidth := x }, c, set_run (k := "stroke-width".toList) ?_, { hl with width := rfl }⟩
    unfold styleEff
    repeat rw [if_neg (by decide)]
    rw [if_pos rfl, length_at hb h hp]; rfl
  | @dashOffset v x l h hp =>
    refine ⟨{ st with dash := { st.dash with dashOffset := x } }, c, set_run (k := "stroke-dashoffset".toList) ?_, { hl with dashOffset := rfl }⟩
    unfold styleEff
    repeat rw [if_neg (by decide)]
    rw [if_pos rfl, length_at hb h hp]; rfl
  | @dash d xs l hw hn hf hp =>
    refine ⟨{ st with dash := { st.dash with dash := xs } }, c, set_run (k := "stroke-dasharray".toList) ?_, { hl with dash := rfl }⟩
    have : parseDashes c.svg.viewBox (d.items.map (·.2)) = .ok xs := by
      apply parseDashes_ok
      clear hw hn
      generalize d.items = is at hf hp
      induction hf with
      | nil => rfl
      | cons a b ih =>
        rw [List.map_cons, List.map_cons, List.map_cons, ih fun h i hi => hp h i (List.mem_cons_of_mem _ hi),
          length_at hb a fun h => hp h _ List.mem_cons_self]
    unfold styleEff
    repeat rw [if_neg (by decide)]
    rw [if_pos rfl, if_pos hn, splitOnCommaOrSpace_text d hw, this]; rfl
  | @noDash h =>
    refine ⟨st, c, set_run (k := "stroke-dasharray".toList) ?_, hl⟩
    unfold styleEff
    repeat rw [if_neg (by decide)]
    rw [if_pos rfl, if_neg (by decide)]
  | @opacity v x l h =>
    refine ⟨{ st with fillOpacity := st.fillOpacity * x, lineOpacity := st.lineOpacity * x }, c, set_run (k := "opacity".toList) ?_,
      { hl with fillOpacity := congrArg (· * x) hl.fillOpacity, strokeOpacity := congrArg (· * x) hl.strokeOpacity }⟩
    unfold styleEff
    repeat rw [if_neg (by decide)]
    rw [if_pos (by decide), numberText_read h]; rfl
  | @fillOpacity v x l h =>
    refine ⟨{ st with fillOpacity := st.fillOpacity * x }, c, set_run (k := "fill-opacity".toList) ?_, { hl with fillOpacity := congrArg (· * x) hl.fillOpacity }⟩
    unfold styleEff
    repeat rw [if_neg (by decide)]
    rw [if_pos (by decide), numberText_read h]; rfl
  | @strokeOpacity v x l h =>
    refine ⟨{ st with lineOpacity := st.lineOpacity * x }, c, set_run (k := "stroke-opacity".toList) ?_, { hl with strokeOpacity := congrArg (· * x) hl.strokeOpacity }⟩
    unfold styleEff
    repeat rw [if_neg (by decide)]
    rw [if_pos (by decide), numberText_read h]; rfl
  | @transforms l ts fs h1 h2 h3 h4 =>
    have hid : top.transform = Matrix2D.identity := identity_of fun p => by rw [ht.place, h1]; rfl
    obtain ⟨m, e1, e2⟩ := stepAll_identity h3 h4
    have hr := parseTransform_list ts h2 (last := []) (by intro c hc; simp at hc) hs
    rw [hid, e1] at hr
    obtain ⟨c', hc'⟩ := transform_run (st := st) hr
    exact ⟨_, c', hc', { hl with place := e2 }⟩
  | @transform l t f h1 h2 h3 h4 =>
    have e : t.text = listText [t] [] := by simp [listText]
    have hr := parseTransform_list [t] (by simpa using h1) (last := []) (by intro c hc; simp at hc) hs
    obtain ⟨m, hm⟩ := C21_accepted (l := [t]) (fs := [f]) (by simpa using h1) (.cons h2 .nil) hs (last := []) (by intro c hc; simp at hc)
    have hm' := hm
    rw [hr] at hm'
    obtain ⟨c', hc'⟩ := transform_run (st := st) hm
    rw [← e] at hc'
    refine ⟨_, c', hc', { hl with place := fun p => ?_ }⟩
    have hstep : readTransformAttr top.transform (t.name.map Char.toLower) t.nums = .ok m := by
      simp only [List.reverse_singleton, stepAll, Res.loop] at hm'
      cases hr : readTransformAttr top.transform (t.name.map Char.toLower) t.nums with
      | ok m' => rw [hr] at hm'; exact hm'
      | err e => rw [hr] at hm'; cases hm'
      | panic e => rw [hr] at hm'; cases hm'
      | diverge => rw [hr] at hm'; cases hm'
    rw [(nested_step h2 h3 hstep).2 (h4 _ ht.place) p, ht.place]; rfl
  | @mask id l h1 h2 =>
    refine ⟨{ st with masks := (appendMask c.svg.arrays st.masks id).2 }, { c with svg := { c.svg with arrays := (appendMask c.svg.arrays st.masks id).1 } }, ?_,
      ⟨hl.1, hl.2, hl.3, hl.4, hl.5, hl.6, hl.7, hl.8, hl.9, hl.10, hl.11, hl.12, hl.13, hl.14⟩⟩
    · rw [readStyleAttr_eff, styleEff_mask.2 rfl]
      simp only [runEff]
      rw [SM.bind_run, SM.lift_run, show parseSelector ("url(#".toList ++ id ++ ")".toList) = .ok id from (C61_selector_iff _ id).2 (.inr ⟨h1, [], rfl⟩)]
      rfl
  | other h => exact ⟨st, c, set_run (looks_ne h), hl⟩

/-- What a declaration does to the masks. -/
theorem declares_masks {root : Bool} {vb : Bounds ℝ} {E : Palette} {parent l l' : Look} {d : Str × Str} (h : Declares root vb E parent d l l') :
    (d.1 = "mask".toList ∧ ∃ id, parseSelector d.2 = .ok id ∧ l'.masks = l.masks ++ [id] ∧ l.masks.length < 3) ∨
      (d.1 ≠ "mask".toList ∧ l'.masks = l.masks) := by
  cases h with
  | mask h1 h2 => exact .inl ⟨rfl, _, (C61_selector_iff _ _).2 (.inr ⟨h1, [], rfl⟩), rfl, h2⟩
  | other h => exact .inr ⟨h "mask" (by decide), rfl⟩
  | _ => exact .inr ⟨by dsimp only; decide, rfl⟩

/-- The style is the look, with the masks that the memory has. -/
structure Wears (mem : List (List Str)) (st : PathStyle ℝ) (l : Look) : Prop where
  look : SameLook st l
  names : ∃ vs, Named mem vs st.masks ∧ List.Forall₂ (fun v id => parseSelector v = .ok id) vs l.masks
  few : l.masks.length ≤ 3

theorem wears_mono {mem mem' : List (List Str)} (h : MemR mem mem') {st : PathStyle ℝ} {l : Look} (hl : Wears mem st l) : Wears mem' st l := by
  obtain ⟨h1, ⟨vs, h2, h3⟩, h4⟩ := hl
  exact ⟨h1, ⟨vs, named_mono h h2, h3⟩, h4⟩

omit [GoEnv] in
theorem selectors_unique {vs ids ids' : List Str} (h : List.Forall₂ (fun v id => parseSelector v = .ok id) vs ids)
    (h' : List.Forall₂ (fun v id => parseSelector v = .ok id) vs ids') : ids = ids' := by
  induction h generalizing ids' with
  | nil => cases h'; rfl
  | cons a _ ih =>
    cases h' with
    | cons b h' => rw [a] at b; cases b; rw [ih h']

theorem wears_realises {mem : List (List Str)} {st : PathStyle ℝ} {l : Look} (hl : Wears mem st l) : Realises mem st l := by
  obtain ⟨h1, ⟨vs, ⟨h2, ids, h5, h6, h7⟩, h3⟩, h4⟩ := hl
  cases selectors_unique h3 h5
  refine ⟨h1, ?_⟩
  have := read_length h2
  rw [List.take_of_length_le h4, List.take_of_length_le (by omega)] at h7
  exact h7

/-- One declaration and the masks. -/
theorem declares_wears {root : Bool} {vb : Bounds ℝ} {E : Palette} {parent l l' : Look} {d : Str × Str} (h : Declares root vb E parent d l l')
    {st top : PathStyle ℝ} {rest : List (PathStyle ℝ)} {c : Cursor ℝ} (hb : root = true ∨ c.svg.viewBox = vb) (hE : Knows E c.svg) (hs : c.styleStack = top :: rest) (ht : SameLook top parent)
    (hl : Wears c.svg.arrays st l) : ∃ st' c', readStyleAttr st d.1 d.2 c = (.ok st', c') ∧ Wears c'.svg.arrays st' l' ∧ MemR c.svg.arrays c'.svg.arrays := by
  obtain ⟨st', c', e, r⟩ := declares_read h hb hE hs ht hl.look
  obtain ⟨vs, n1, n2⟩ := hl.names
  have hm := (readStyleAttr_mem st d.1 d.2 c n1.ok).1
  rw [e] at hm
  have hn := readStyleAttr_named n1 e
  refine ⟨st', c', e, ⟨r, ?_, ?_⟩, hm⟩
  · rcases declares_masks h with ⟨hk, id, k1, k2, -⟩ | ⟨hk, k1⟩
    · rw [if_pos hk] at hn
      exact ⟨_, hn, by rw [k2]; exact List.rel_append n2 (.cons k1 .nil)⟩
    · rw [if_neg hk, List.append_nil] at hn
      exact ⟨_, hn, by rw [k1]; exact n2⟩
  · rcases declares_masks h with ⟨hk, id, k1, k2, k3⟩ | ⟨hk, k1⟩
    · rw [k2, List.length_append]; exact k3
    · rw [k1]; exact hl.few

/-- All declarations are read. -/
theorem declares_loop {root : Bool} {vb : Bounds ℝ} {E : Palette} {parent : Look} {ds : List (Str × Str)} {l l' : Look} (h : DeclaresAll root vb E parent ds l l') :
    ∀ {st top : PathStyle ℝ} {rest : List (PathStyle ℝ)} {c : Cursor ℝ}, (root = true ∨ c.svg.viewBox = vb) → Knows E c.svg → c.styleStack = top :: rest →
      SameLook top parent → Wears c.svg.arrays st l → ∃ st' c', declLoop st ds c = (.ok st', c') ∧ Wears c'.svg.arrays st' l' ∧ MemR c.svg.arrays c'.svg.arrays := by
  induction h with
  | nil => intro st top rest c hb hE hs ht hl; exact ⟨st, c, rfl, hl, memR_refl _⟩
  | @cons d ds l l' l'' h1 h2 ih =>
    intro st top rest c hb hE hs ht hl
    obtain ⟨st1, c1, e1, r1, m1⟩ := declares_wears h1 hb hE hs ht hl
    have hR := readStyleAttr_styleR st d.1 d.2 c
    rw [e1] at hR
    have hbox : c1.svg.viewBox = c.svg.viewBox := (styleR_same hR).viewBox
    obtain ⟨st2, c2, e2, r2, m2⟩ := ih (st := st1) (top := top) (rest := rest) (c := c1) (by rw [hbox]; exact hb)
      (knows_same hE (styleR_gradSame hR).grads (styleR_gradSame hR).heap) ((styleR_stack hR).trans hs) ht r1
    refine ⟨st2, c2, ?_, r2, memR_trans m1 m2⟩
    rw [declLoop, SM.bind_run, e1]
    exact e2

/-! ### Shapes -/

theorem measures_len {vb : Bounds ℝ} {attrs : List Attr} {n : String} {ref : PercRef} {x : ℝ} (h : Measures vb attrs n ref x) : Len vb attrs n ref x := by
  cases h with
  | given h1 h2 => exact .inl ⟨_, h1, lengthText_read h2⟩
  | absent h => exact .inr ⟨h, by simp⟩

theorem hasRadii_radii {vb : Bounds ℝ} {attrs : List Attr} {rx ry : ℝ} (h : HasRadii vb attrs rx ry) : Radii vb attrs rx ry := by
  cases h with
  | one h1 h2 h3 => exact .inl ⟨measures_len h1, rfl, h2, h3⟩
  | two h1 h2 h3 => exact .inr ⟨measures_len h1, measures_len h2, h3⟩

theorem hasBox_rect {vb : Bounds ℝ} {attrs : List Attr} {x y w h rx ry : ℝ} (b : HasBox vb attrs x y w h rx ry) : IsRect vb attrs x y w h rx ry :=
  ⟨measures_len b.x, measures_len b.y, measures_len b.w, measures_len b.h, measures_len b.rx, measures_len b.ry⟩

theorem writes_exact (l : GroupList) (h : l.WF) : WritesNumbers (l.numbers.map fun n => (n.value : ℝ)) l.text := by
  refine ⟨l, _, rfl, h, readAll_real _ ?_, ?_⟩
  · intro n hn
    obtain ⟨i, hi, hn⟩ := List.mem_flatMap.1 hn
    have := (h.2.1 i hi).1
    rcases List.mem_cons.1 hn with rfl | hn
    · exact this.first
    · exact (this.more n hn).1
  · simp

theorem figures_tag {vb : Bounds ℝ} {name : Str} {attrs : List Attr} {fs : List Figure} (h : Figures vb name attrs fs) : name ∈ shapeTags := by
  cases h with
  | ellipse hn => rcases hn with rfl | rfl <;> decide
  | noEllipse hn => rcases hn with rfl | rfl <;> decide
  | @poly closed => cases closed <;> decide
  | _ => decide

/-- A path is the figure in its look, with the masks that the memory has. -/
structure Portrays (mem : List (List Str)) (q : SvgPath ℝ) (i : Look × Figure) : Prop where
  look : Wears mem q.style i.1
  outline : ∃ G, i.2.outline G ∧ if i.2.rounded then List.Forall₂ (OpWithin (5 / 64)) q.path G else q.path = G.map (GOp.store toFix 0 0)

theorem portrays_mono {mem mem' : List (List Str)} (h : MemR mem mem') {q : SvgPath ℝ} {i : Look × Figure} (hq : Portrays mem q i) : Portrays mem' q i :=
  ⟨wears_mono h hq.look, hq.outline⟩

theorem portrays_all {mem mem' : List (List Str)} (h : MemR mem mem') {qs : List (SvgPath ℝ)} {is : List (Look × Figure)}
    (hq : List.Forall₂ (Portrays mem) qs is) : List.Forall₂ (Portrays mem') qs is := hq.imp fun _ _ => portrays_mono h

theorem portrays_depicts {mem : List (List Str)} {q : SvgPath ℝ} {i : Look × Figure} (hq : Portrays mem q i) : Depicts mem q i :=
  ⟨wears_realises hq.look, hq.outline⟩

omit [GoEnv] in
theorem depicts_at {mem : List (List Str)} {q : SvgPath ℝ} {l : Look} {f : Figure} {a b : ℝ} {G : List (GOp ℝ)} (hl : Wears mem q.style l) (ho : f.outline G)
    (hr : f.rounded = false) (hp : q.path = G.map (GOp.store toFix a b)) : Portrays mem q (l, f.moved a b) := by
  refine ⟨hl, _, ⟨G, ho, rfl⟩, ?_⟩
  rw [if_neg (show ¬ (l, f.moved a b).2.rounded = true from (by rw [hr]; decide : ¬ f.rounded = true)), store_moved]
  exact hp

/-- What a shape adds to the drawing, with an offset. -/
theorem figures_adds_at {fuel : Nat} (hf : 1 ≤ fuel) {vb : Bounds ℝ} {name : Str} {attrs : List Attr} {fs : List Figure} (h : Figures vb name attrs fs)
    (hd : Distinct attrs) {c : Cursor ℝ} {st : PathStyle ℝ} (hr : Ready c st) (hb : c.svg.viewBox = vb) (hfit : ∀ f ∈ fs, f.fits c.pc.curX c.pc.curY)
    {l : Look} (hl : Wears c.svg.arrays st l) :
    ∃ qs, Adds (readStartElement fuel name attrs c) c qs ∧ List.Forall₂ (Portrays c.svg.arrays) qs (fs.map fun f => (l, f.moved c.pc.curX c.pc.curY)) := by
  have e0 : (num 0 : ℝ) = 0 := by simp
  subst hb
  cases h with
  | @line _ x1 y1 x2 y2 h1 h2 h3 h4 =>
    refine ⟨_, C17_line (fuel := fuel) hd hr (measures_len h1) (measures_len h2) (measures_len h3) (measures_len h4),
      .cons (depicts_at hl rfl rfl ?_) .nil⟩
    simp [GOp.store, toFixedP]
  | @rect _ x y w h rx ry hB hw hh h1 h2 =>
    refine ⟨_, C16_corners (fuel := fuel) hd hr (hasBox_rect hB) hw hh ⟨h1, h2⟩, .cons (depicts_at hl rfl rfl ?_) .nil⟩
    simp [GOp.store, toFixedP, add_right_comm]
  | @round _ x y w h rx ry r hB hw hh h1 h2 h3 h4 h5 h6 h7 h8 h9 h10 =>
    obtain ⟨f1, f2⟩ := hfit _ List.mem_cons_self
    obtain ⟨gs, ops, k1, k2, k3⟩ := C83_exact_partial hf hd hr (hasBox_rect hB) hw hh h1 h2 h3 h4 h5 h6 f1 f2 h9 h10
    have k4 := roundedRect_moved (-c.pc.curX) (-c.pc.curY) k1
    rw [add_neg_cancel_right, add_neg_cancel_right] at k4
    exact ⟨_, k3, .cons ⟨hl, gs, ⟨_, k4, (moved_back _ _ _).symm⟩, k2⟩ .nil⟩
  | @noRect _ x y w h rx ry hB h0 =>
    exact ⟨[], C16_empty hd hr (hasBox_rect hB) (by simpa [e0] using h0), .nil⟩
  | @ellipse _ _ cx cy rx ry hn h1 h2 h3 h4 h5 =>
    obtain ⟨cs, f1, f2⟩ := C15_ellipse (fuel := fuel) hn hd hr (measures_len h1) (measures_len h2) (hasRadii_radii h3) h4 h5
    have f3 := follows_moved (-c.pc.curX) (-c.pc.curY) f1
    rw [add_neg_cancel_right, add_neg_cancel_right] at f3
    refine ⟨_, f2, .cons (depicts_at hl ⟨_, f3, rfl⟩ rfl ?_) .nil⟩
    rw [← store_moved, List.map_append, List.map_cons, moved_cubics, moved_back]
    simp [GOp.store, GOp.moved, toFixedP, add_right_comm]
  | @noEllipse _ _ cx cy rx ry hn h1 h2 h3 h4 =>
    exact ⟨[], C15_zero_radius hn hd hr (measures_len h1) (measures_len h2) (hasRadii_radii h3) (by simpa [e0] using h4), .nil⟩
  | @poly closed _ p pts v h1 h2 h3 =>
    obtain ⟨g, rfl, g2, g3⟩ := h2
    have hw := writes_exact g g2
    rw [← g3] at hw
    refine ⟨_, C17_poly_partial (fuel := fuel) (closed := closed) hd hr h1 hw h3, .cons (depicts_at hl rfl rfl ?_) .nil⟩
    cases closed <;> simp [GOp.store, toFixedP]
  | @path _ pre cmds ts h1 h2 h3 h4 h5 h6 =>
    obtain ⟨pc, ops, k1, k2, k3, -⟩ := C78_path_at_partial pre h1 cmds ts h2 h3 h4 c.pc (hfit _ List.mem_cons_self)
    have := path_adds (fuel := fuel) hd hr h6 k1
    rw [k3, if_neg (by simpa using standFor_ne k2 h3 h5)] at this
    exact ⟨_, this, .cons (depicts_at hl k2 rfl rfl) .nil⟩

omit [GoEnv] in
theorem depicts_zero {mem : List (List Str)} {q : SvgPath ℝ} {l : Look} {f : Figure} (h : Portrays mem q (l, f.moved 0 0)) : Portrays mem q (l, f) := by
  obtain ⟨G, ⟨G0, h1, h2⟩, h3⟩ := h.outline
  have : G0.map (GOp.moved 0 0) = G0 := by
    conv_rhs => rw [← List.map_id G0]
    exact List.map_congr_left fun o _ => moved_zero o
  rw [this] at h2
  subst h2
  exact ⟨h.look, G, h1, h3⟩

theorem figures_fit {vb : Bounds ℝ} {name : Str} {attrs : List Attr} {fs : List Figure} (h : Figures vb name attrs fs) : ∀ f ∈ fs, f.fits 0 0 := by
  cases h with
  | @round _ x y w h rx ry r hB hw hh h1 h2 h3 h4 h5 h6 h7 h8 h9 h10 =>
    intro f hf
    cases List.mem_singleton.1 hf
    show |x + 0| ≤ _ ∧ |y + 0| ≤ _
    rw [add_zero, add_zero]
    exact ⟨h7, h8⟩
  | path =>
    intro f hf
    cases List.mem_singleton.1 hf
    exact .inl ⟨rfl, rfl⟩
  | noRect => exact fun f hf => nomatch hf
  | noEllipse => exact fun f hf => nomatch hf
  | _ =>
    intro f hf
    cases List.mem_singleton.1 hf
    trivial

/-- What a shape adds to the drawing. -/
theorem figures_adds {fuel : Nat} (hf : 1 ≤ fuel) {vb : Bounds ℝ} {name : Str} {attrs : List Attr} {fs : List Figure} (h : Figures vb name attrs fs)
    (hd : Distinct attrs) {c : Cursor ℝ} {st : PathStyle ℝ} (hr : Ready c st) (hb : c.svg.viewBox = vb) (hx : c.pc.curX = num 0)
    (hy : c.pc.curY = num 0) {l : Look} (hl : Wears c.svg.arrays st l) :
    ∃ qs, Adds (readStartElement fuel name attrs c) c qs ∧ List.Forall₂ (Portrays c.svg.arrays) qs (fs.map fun f => (l, f)) := by
  have e0 : (num 0 : ℝ) = 0 := by simp
  rw [e0] at hx hy
  obtain ⟨qs, h1, h2⟩ := figures_adds_at hf h hd hr hb (by rw [hx, hy]; exact figures_fit h) hl
  refine ⟨qs, h1, ?_⟩
  rw [hx, hy] at h2
  rw [List.forall₂_map_right_iff] at h2 ⊢
  exact h2.imp fun _ _ => depicts_zero

/-! ### Tokens -/

/-- Inside the root element, and inside `defs` or not. -/
structure Around (vb : Bounds ℝ) (b : Bool) (c : Cursor ℝ) : Prop where
  viewBox : c.svg.viewBox = vb
  mode : c.pc.errorMode = .strict
  path : c.pc.path = []
  curX : c.pc.curX = num 0
  curY : c.pc.curY = num 0
  inDefs : c.inDefs = b
  inMask : c.inMask = false
  title : c.inTitleText = false
  desc : c.inDescText = false

/-- No masks in the definitions. -/
def MaskFree (s : Definitions) : Prop := (∀ id ds, s.done.lookup id = some ds → ∀ d ∈ ds, d.tag ≠ "mask".toList) ∧ ∀ d ∈ s.open_, d.tag ≠ "mask".toList

/-- The masks that have been read. -/
structure MasksAt (E : Names) (c : Cursor ℝ) : Prop where
  now : c.mask = none
  free : MaskFree E.defs
  table : ∀ id, match E.masks id with
    | none => c.svg.svgMasks.find id = none
    | some k => ∃ m : SvgMask ℝ, c.svg.svgMasks.find id = some m ∧ m.id = id ∧ m.x = k.x ∧ m.y = k.y ∧ m.w = k.w ∧ m.h = k.h ∧
      List.Forall₂ (Portrays c.svg.arrays) m.svgPaths k.shown

theorem masks_other {E E' : Names} {c c' : Cursor ℝ} (h : MasksAt E c) (h1 : c'.mask = c.mask) (h2 : c'.svg.svgMasks = c.svg.svgMasks)
    (h3 : MemR c.svg.arrays c'.svg.arrays) (h4 : E'.masks = E.masks) (h5 : MaskFree E'.defs) : MasksAt E' c' := by
  refine ⟨h1.trans h.now, h5, fun id => ?_⟩
  have := h.table id
  rw [h4, h2]
  split
  · rename_i hn; rw [hn] at this; exact this
  · rename_i k hn
    rw [hn] at this
    obtain ⟨m, a1, a2, a3, a4, a5, a6, a7⟩ := this
    exact ⟨m, a1, a2, a3, a4, a5, a6, portrays_all h3 a7⟩

theorem masks_same {E : Names} {c c' : Cursor ℝ} (h : MasksAt E c) (h1 : c'.mask = c.mask) (h2 : c'.svg.svgMasks = c.svg.svgMasks)
    (h3 : MemR c.svg.arrays c'.svg.arrays) : MasksAt E c' := masks_other h h1 h2 h3 rfl h.free

/-- Between the elements of a document. -/
structure Inside (vb : Bounds ℝ) (b : Bool) (E : Names) (c : Cursor ℝ) : Prop where
  around : Around vb b c
  inGrad : c.inGrad = false
  knows : Knows E.grads c.svg
  table : TableAt E.defs c
  masks : MasksAt E c

/-- The drawing, the titles and the descriptions are the same. -/
structure Kept (c c' : Cursor ℝ) : Prop where
  paths : c'.svg.svgPaths = c.svg.svgPaths
  titles : c'.svg.titles = c.svg.titles
  descs : c'.svg.descriptions = c.svg.descriptions
  mem : MemR c.svg.arrays c'.svg.arrays

theorem Kept.trans {c c' c'' : Cursor ℝ} (h : Kept c c') (h' : Kept c' c'') : Kept c c'' :=
  ⟨h'.paths.trans h.paths, h'.titles.trans h.titles, h'.descs.trans h.descs, memR_trans h.mem h'.mem⟩

/-- From one state to another, with these paths, titles and descriptions added. -/
structure Goes (vb : Bounds ℝ) (b : Bool) (E : Names) (c c' : Cursor ℝ) (qs : List (SvgPath ℝ)) (ts ds : List Str) : Prop where
  inside : Inside vb b E c'
  paths : c'.svg.svgPaths = c.svg.svgPaths ++ qs
  titles : c'.svg.titles = c.svg.titles ++ ts
  descs : c'.svg.descriptions = c.svg.descriptions ++ ds
  mem : MemR c.svg.arrays c'.svg.arrays

theorem Goes.trans {vb : Bounds ℝ} {b b' : Bool} {E E' : Names} {c c' c'' : Cursor ℝ} {qs qs' : List (SvgPath ℝ)} {ts ts' ds ds' : List Str}
    (h : Goes vb b E c c' qs ts ds) (h' : Goes vb b' E' c' c'' qs' ts' ds') : Goes vb b' E' c c'' (qs ++ qs') (ts ++ ts') (ds ++ ds') :=
  ⟨h'.inside, by rw [h'.paths, h.paths, List.append_assoc], by rw [h'.titles, h.titles, List.append_assoc],
    by rw [h'.descs, h.descs, List.append_assoc], memR_trans h.mem h'.mem⟩

theorem goes_kept {vb : Bounds ℝ} {b : Bool} {E : Names} {c c' : Cursor ℝ} (h : Inside vb b E c') (hk : Kept c c') : Goes vb b E c c' [] [] [] :=
  ⟨h, by rw [hk.paths, List.append_nil], by rw [hk.titles, List.append_nil], by rw [hk.descs, List.append_nil], hk.mem⟩

theorem Goes.refl {vb : Bounds ℝ} {b : Bool} {E : Names} {c : Cursor ℝ} (h : Inside vb b E c) : Goes vb b E c c [] [] [] := goes_kept h ⟨rfl, rfl, rfl, memR_refl _⟩

omit [GoEnv] in
theorem Goes.kept {vb : Bounds ℝ} {b : Bool} {E : Names} {c c' : Cursor ℝ} (h : Goes vb b E c c' [] [] []) : Kept c c' :=
  ⟨by rw [h.paths, List.append_nil], by rw [h.titles, List.append_nil], by rw [h.descs, List.append_nil], h.mem⟩

omit [GoEnv] in
theorem Around.stack {vb : Bounds ℝ} {b : Bool} {c : Cursor ℝ} (h : Around vb b c) (r : List (PathStyle ℝ)) : Around vb b { c with styleStack := r } :=
  ⟨h.1, h.2, h.3, h.4, h.5, h.6, h.7, h.8, h.9⟩

theorem Inside.stack {vb : Bounds ℝ} {b : Bool} {E : Names} {c : Cursor ℝ} (h : Inside vb b E c) (r : List (PathStyle ℝ)) :
    Inside vb b E { c with styleStack := r } := ⟨h.around.stack r, h.inGrad, h.knows, ⟨h.table.done, h.table.cur⟩, masks_same h.masks rfl rfl (memR_refl _)⟩

/-- The definitions are the same. -/
def SameTable (c c' : Cursor ℝ) : Prop := c'.svg.defs = c.svg.defs ∧ c'.currentDef = c.currentDef

omit [GoEnv] in
theorem table_same {s : Definitions} {c c' : Cursor ℝ} (h : TableAt s c) (h' : SameTable c c') : TableAt s c' :=
  ⟨by rw [h'.1]; exact h.done, h'.2.trans h.cur⟩

/-- The style of an element. -/
theorem push_any {vb : Bounds ℝ} {E : Palette} {c : Cursor ℝ} (hc : c.svg.viewBox = vb) (hE : Knows E c.svg) {st : PathStyle ℝ}
    {rest : List (PathStyle ℝ)} (hs : c.styleStack = st :: rest) {l l' : Look} (hl : Wears c.svg.arrays st l) {attrs : List Attr}
    (hd : DeclaresAll false vb E l (declared attrs) l l') :
    ∃ c1 st', pushStyle attrs c = (.ok (), c1) ∧ c1.styleStack = st' :: st :: rest ∧ Wears c1.svg.arrays st' l' ∧ SameDraw c c1 ∧ FlagR c c1 ∧ GradSame c c1 ∧
      SameTable c c1 ∧ MemR c.svg.arrays c1.svg.arrays ∧ c1.svg.svgMasks = c.svg.svgMasks := by
  obtain ⟨st', c', e, r, hm⟩ := declares_loop hd (.inr hc) hE hs hl.look hl
  rw [← decls_eq_declared] at e
  have hp := pushed_style hs e
  have hf := pushStyle_flag attrs c
  have hg := pushStyle_gradSame attrs c
  have he := pushStyle_elem attrs c
  have h := pushStyle_same hp
  rw [hp] at hf hg he
  exact ⟨_, st', hp, by dsimp only; rw [hs], r, h, hf, hg, ⟨he.defs, he.currentDef⟩, hm, he.svgMasks⟩

theorem push_around {vb : Bounds ℝ} {b : Bool} {E : Palette} {c : Cursor ℝ} (hc : Around vb b c) (hE : Knows E c.svg) {st : PathStyle ℝ}
    {rest : List (PathStyle ℝ)} (hs : c.styleStack = st :: rest) {l l' : Look} (hl : Wears c.svg.arrays st l) {attrs : List Attr}
    (hd : DeclaresAll false vb E l (declared attrs) l l') :
    ∃ c1 st', pushStyle attrs c = (.ok (), c1) ∧ c1.styleStack = st' :: st :: rest ∧ Wears c1.svg.arrays st' l' ∧ Around vb b c1 ∧ GradSame c c1 ∧ Kept c c1 ∧
      SameTable c c1 ∧ c1.mask = c.mask ∧ c1.svg.svgMasks = c.svg.svgMasks := by
  obtain ⟨c1, st', h1, h2, h3, h, hf, hg, ht, hm, hk⟩ := push_any hc.viewBox hE hs hl hd
  exact ⟨c1, st', h1, h2, h3, ⟨h.viewBox.trans hc.viewBox, h.mode.trans hc.mode, h.path.trans hc.path, h.curX.trans hc.curX,
    h.curY.trans hc.curY, h.inDefs.trans hc.inDefs, h.inMask.trans hc.inMask, hf.inTitle.trans hc.title, hf.inDesc.trans hc.desc⟩, hg,
    ⟨h.paths, hf.titles, hf.descs, hm⟩, ht, hf.mask, hk⟩

theorem push_inside {vb : Bounds ℝ} {b : Bool} {E : Names} {c : Cursor ℝ} (hc : Inside vb b E c) {st : PathStyle ℝ} {rest : List (PathStyle ℝ)}
    (hs : c.styleStack = st :: rest) {l l' : Look} (hl : Wears c.svg.arrays st l) {attrs : List Attr} (hd : DeclaresAll false vb E.grads l (declared attrs) l l') :
    ∃ c1 st', pushStyle attrs c = (.ok (), c1) ∧ c1.styleStack = st' :: st :: rest ∧ Wears c1.svg.arrays st' l' ∧ Goes vb b E c c1 [] [] [] := by
  obtain ⟨c1, st', h1, h2, h3, h4, h5, h6, h7, h8, h9⟩ := push_around hc.around hc.knows hs hl hd
  exact ⟨c1, st', h1, h2, h3, goes_kept ⟨h4, h5.inGrad.trans hc.inGrad, knows_same hc.knows h5.grads h5.heap, table_same hc.table h7, masks_same hc.masks h8 h9 h6.mem⟩ h6⟩

/-- The start tag of a shape. -/
theorem shape_start {fuel : Nat} (hf : 1 ≤ fuel) {vb : Bounds ℝ} {E : Names} {c : Cursor ℝ} (hc : Inside vb false E c) {st : PathStyle ℝ}
    {rest : List (PathStyle ℝ)} (hs : c.styleStack = st :: rest) {l l' : Look} (hl : Wears c.svg.arrays st l) {name : Str} {attrs : List Attr} (hdi : Distinct attrs)
    (hd : DeclaresAll false vb E.grads l (declared attrs) l l') {fs : List Figure} (h : Figures vb name attrs fs) :
    ∃ c1 st' qs, readToken fuel (.start name attrs) c = (.ok (), c1) ∧ c1.styleStack = st' :: st :: rest ∧ Goes vb false E c c1 qs [] [] ∧
      List.Forall₂ (Portrays c1.svg.arrays) qs (fs.map fun f => (l', f)) := by
  obtain ⟨c1, st', h1, h2, h3, h4⟩ := push_inside hc hs hl hd
  have h5 := h4.inside.around
  obtain ⟨qs, a, hq⟩ := figures_adds hf h hdi (c := c1) (st := st') ⟨h5.inDefs, h5.inMask, h5.path, by rw [h2]; rfl⟩ h5.viewBox h5.curX h5.curY h3
  rcases hx : readStartElement fuel name attrs c1 with ⟨r, c2⟩
  rw [hx] at a
  obtain ⟨rfl, a2, a3⟩ := a
  dsimp only at a2 a3
  have hread : readToken fuel (.start name attrs) c = (.ok (), c2) := by
    rw [readToken, SM.bind_run, h1]; exact hx
  refine ⟨c2, st', qs, hread, a3.trans h2, ?_, by rw [a2]; exact hq⟩
  have key : Around vb false c2 ∧ c2.inGrad = c1.inGrad ∧ c2.currentDef = c1.currentDef ∧ c2.mask = none := by
    rcases readStartElement_cases fuel name attrs c1 with ⟨k, -⟩ | ⟨-, ⟨k, k'⟩ | ⟨df, hdf, ⟨hn, h'⟩ | ⟨htm, c3, hE, h'⟩ | ⟨htm, -, h'⟩⟩⟩
    · rw [h5.inDefs] at k; cases k
    · exfalso
      rw [hx, handleError, if_pos h5.mode] at k'
      cases k'
    · rw [hx] at h'; rw [← h'] at hn; exact absurd trivial hn
    · rw [hx] at h'
      obtain ⟨e1, rfl⟩ := Prod.mk.inj h'
      have hk : DrawR c1 (df attrs c1).2 := by
        rcases drawFuncs_cases hdf with ⟨-, hk⟩ | hk
        · exact hk attrs c1
        · exfalso
          have ht := figures_tag h
          rcases hk with ⟨rfl, -⟩ | ⟨rfl, -⟩ | ⟨rfl, -⟩ | ⟨rfl, -⟩ | ⟨rfl, -⟩ | ⟨rfl, -⟩ | ⟨rfl, -⟩ | ⟨rfl, -⟩ | ⟨rfl, -⟩ | ⟨rfl, -⟩ <;>
            exact absurd ht (by decide)
      have e2 := hk.eq
      have hm : (df attrs c1).2.inMask = false := by rw [e2]; exact h5.inMask
      obtain ⟨ps, p1, p2, -, p3, p4, p5, p6, p7, p8, p9⟩ := emit_here hE hm
      refine ⟨⟨?_, ?_, p3, ?_, ?_, ?_, ?_, ?_, ?_⟩, ?_, ?_, ?_⟩
      · rw [p4, e2]; exact h5.viewBox
      · rw [p5, hk.mode]; exact h5.mode
      · rw [p6, hk.curX]; exact h5.curX
      · rw [p7, hk.curY]; exact h5.curY
      · rw [p8, e2]; exact h5.inDefs
      · rw [p9]; exact hm
      · have : c2.inTitleText = (df attrs c1).2.inTitleText := by cases hE <;> rfl
        rw [this, e2]; exact h5.title
      · have : c2.inDescText = (df attrs c1).2.inDescText := by cases hE <;> rfl
        rw [this, e2]; exact h5.desc
      · have : c2.inGrad = (df attrs c1).2.inGrad := by cases hE <;> rfl
        rw [this, e2]
      · have : c2.currentDef = (df attrs c1).2.currentDef := by cases hE <;> rfl
        rw [this, e2]
      · have h0 : (df attrs c1).2.mask = none := by rw [e2]; exact h4.inside.masks.now
        cases hE with
        | mask _ h => rw [hm] at h; cases h
        | _ => exact h0
    · rw [hx] at h'; cases h'
  obtain ⟨k1, k2, k3, k4⟩ := key
  refine ⟨⟨k1, k2.trans h4.inside.inGrad, ?_, table_same h4.inside.table ⟨by rw [a2], k3⟩,
    masks_same h4.inside.masks (k4.trans h4.inside.masks.now.symm) (by rw [a2]) (by rw [a2]; exact memR_refl _)⟩, ?_, ?_, ?_, by rw [a2]; exact h4.mem⟩
  · rw [a2]; exact knows_same h4.inside.knows rfl rfl
  · rw [a2]; dsimp only; rw [h4.paths, List.append_nil]
  · rw [a2]; exact h4.titles
  · rw [a2]; exact h4.descs

/-- Text and comments between elements. -/
theorem misc_around {fuel : Nat} {vb : Bounds ℝ} {b : Bool} {c : Cursor ℝ} (hc : Around vb b c) :
    ∀ {ts : List Token}, NoTags ts → readTokens fuel ts c = (.ok (), c)
  | [], _ => rfl
  | t :: ts, h => by
    have ih := misc_around (fuel := fuel) hc (ts := ts) fun t ht => h t (List.mem_cons_of_mem _ ht)
    have ht := h t List.mem_cons_self
    rw [readTokens_cons, SM.bind_run]
    have hr : readToken fuel t c = (.ok (), c) := by
      cases t with
      | start n a => exact absurd rfl (ht.1 n a)
      | stop n => exact absurd rfl (ht.2 n)
      | chars s =>
        rw [readToken, readChars, if_neg (by rw [hc.title]; decide)]
        dsimp only
        rw [if_neg (by rw [hc.desc]; decide)]
      | other => rfl
    rw [hr]
    exact ih

/-- The text of a title. -/
theorem title_chars {fuel : Nat} {T : List Str} : ∀ {ts : List Token} {t : Str} {c : Cursor ℝ}, NoTags ts → c.inTitleText = true → c.inDescText = false →
    c.svg.titles = T ++ [t] → readTokens fuel ts c = (.ok (), { c with svg := { c.svg with titles := T ++ [t ++ textOf ts] } })
  | [], t, c, _, _, _, h3 => by
    have : T ++ [t ++ textOf []] = c.svg.titles := by rw [h3]; simp [textOf]
    rw [this]; rfl
  | .start n a :: ts, _, _, h, _, _, _ => absurd rfl ((h _ List.mem_cons_self).1 n a)
  | .stop n :: ts, _, _, h, _, _, _ => absurd rfl ((h _ List.mem_cons_self).2 n)
  | .other :: ts, t, c, h, h1, h2, h3 => title_chars (ts := ts) (fun t ht => h t (List.mem_cons_of_mem _ ht)) h1 h2 h3
  | .chars s :: ts, t, c, h, h1, h2, h3 => by
    rw [readTokens_cons, SM.bind_run]
    have hr : readToken fuel (.chars s) c = (.ok (), { c with svg := { c.svg with titles := T ++ [t ++ s] } }) := by
      rw [readToken, readChars, h1, if_pos rfl, h3, appendLast_snoc]
      dsimp only
      rw [h2, if_neg (by decide)]
    rw [hr]
    refine (title_chars (ts := ts) (t := t ++ s) (c := { c with svg := { c.svg with titles := T ++ [t ++ s] } })
      (fun t ht => h t (List.mem_cons_of_mem _ ht)) h1 h2 rfl).trans ?_
    simp [textOf]

/-- The text of a description. -/
theorem desc_chars {fuel : Nat} {T : List Str} : ∀ {ts : List Token} {t : Str} {c : Cursor ℝ}, NoTags ts → c.inTitleText = false → c.inDescText = true →
    c.svg.descriptions = T ++ [t] → readTokens fuel ts c = (.ok (), { c with svg := { c.svg with descriptions := T ++ [t ++ textOf ts] } })
  | [], t, c, _, _, _, h3 => by
    have : T ++ [t ++ textOf []] = c.svg.descriptions := by rw [h3]; simp [textOf]
    rw [this]; rfl
  | .start n a :: ts, _, _, h, _, _, _ => absurd rfl ((h _ List.mem_cons_self).1 n a)
  | .stop n :: ts, _, _, h, _, _, _ => absurd rfl ((h _ List.mem_cons_self).2 n)
  | .other :: ts, t, c, h, h1, h2, h3 => desc_chars (ts := ts) (fun t ht => h t (List.mem_cons_of_mem _ ht)) h1 h2 h3
  | .chars s :: ts, t, c, h, h1, h2, h3 => by
    rw [readTokens_cons, SM.bind_run]
    have hr : readToken fuel (.chars s) c = (.ok (), { c with svg := { c.svg with descriptions := T ++ [t ++ s] } }) := by
      rw [readToken, readChars, h1, if_neg (by decide)]
      dsimp only
      rw [h2, if_pos rfl, h3, appendLast_snoc]
    rw [hr]
    refine (desc_chars (ts := ts) (t := t ++ s) (c := { c with svg := { c.svg with descriptions := T ++ [t ++ s] } })
      (fun t ht => h t (List.mem_cons_of_mem _ ht)) h1 h2 rfl).trans ?_
    simp [textOf]

/-- The end tags that close nothing but their element. -/
theorem stop_simple {fuel : Nat} {c : Cursor ℝ} {st : PathStyle ℝ} {rest : List (PathStyle ℝ)} (hs : c.styleStack = st :: rest) {name : Str}
    (hn : name ∈ "stop".toList :: "svg".toList :: "use".toList :: shapeTags) : readToken fuel (.stop name) c = (.ok (), { c with styleStack := rest }) := by
  have hne : ∀ n ∈ "stop".toList :: "svg".toList :: "use".toList :: shapeTags, n ≠ "g".toList ∧ n ≠ "mask".toList ∧ n ≠ "title".toList ∧ n ≠ "desc".toList ∧
      n ≠ "defs".toList ∧ ¬ (n = "radialGradient".toList ∨ n = "linearGradient".toList) := by decide
  obtain ⟨n0, n1, n2, n3, n4, n5⟩ := hne name hn
  rw [readToken, readEndElement, SM.bind_run, popStyle, hs]
  dsimp only
  rw [SM.modify_run, if_neg n0, if_neg n1, if_neg n2, if_neg n3, if_neg n4, if_neg n5]

omit [GoEnv] in
theorem free_endGroup {E : Names} (h : MaskFree E.defs) : MaskFree E.endGroup.defs := by
  refine ⟨h.1, fun d hd => ?_⟩
  rcases List.mem_append.1 hd with hd | hd
  · exact h.2 d hd
  · cases List.mem_singleton.1 hd; decide

omit [GoEnv] in
theorem free_close {s : Definitions} (h : MaskFree s) : MaskFree s.close := by
  unfold Definitions.close
  split
  · exact h
  · rename_i d ds e
    refine ⟨fun id es hes => ?_, fun d hd => nomatch hd⟩
    rw [List.lookup_cons] at hes
    split at hes
    · cases hes; intro d' hd'; exact h.2 d' hd'
    · exact h.1 id es hes

omit [GoEnv] in
theorem free_record {E : Names} (h : MaskFree E.defs) {name : Str} (hn : name ≠ "mask".toList) (attrs : List Attr) : MaskFree (E.record name attrs).defs := by
  have h' : MaskFree (if lastNamed "id" attrs = [] then E.defs else E.defs.close) := by split; exacts [h, free_close h]
  refine ⟨h'.1, fun d hd => ?_⟩
  rcases List.mem_append.1 hd with hd | hd
  · exact h'.2 d hd
  · cases List.mem_singleton.1 hd; exact hn

/-- The end tag of a group. -/
theorem stop_group {fuel : Nat} {vb : Bounds ℝ} {b : Bool} {E : Names} {c : Cursor ℝ} (hc : Inside vb b E c) {st : PathStyle ℝ} {rest : List (PathStyle ℝ)}
    (hs : c.styleStack = st :: rest) : ∃ c', readToken fuel (.stop "g".toList) c = (.ok (), c') ∧ c'.styleStack = rest ∧ Goes vb b (if b then E.endGroup else E) c c' [] [] [] := by
  have h := hc.around
  refine ⟨if b then { c with styleStack := rest, currentDef := c.currentDef ++ [⟨[], "endg".toList, []⟩] } else { c with styleStack := rest }, ?_, ?_, ?_⟩
  · rw [readToken, readEndElement, SM.bind_run, popStyle, hs]
    dsimp only
    rw [SM.modify_run, if_pos rfl]
    dsimp only
    rw [h.inDefs]
  · cases b <;> rfl
  · refine goes_kept ⟨?_, ?_, ?_, ?_, ?_⟩ ?_
    · cases b <;> exact ⟨h.1, h.2, h.3, h.4, h.5, h.6, h.7, h.8, h.9⟩
    · cases b <;> exact hc.inGrad
    · cases b <;> exact hc.knows
    · cases b
      · exact ⟨hc.table.done, hc.table.cur⟩
      · exact ⟨hc.table.done, congrArg (· ++ [endOfGroup]) hc.table.cur⟩
    · cases b
      · exact masks_same hc.masks rfl rfl (memR_refl _)
      · exact masks_other hc.masks rfl rfl (memR_refl _) rfl (free_endGroup hc.masks.free)
    · cases b <;> exact ⟨rfl, rfl, rfl, memR_refl _⟩

/-- The end tag of a title or a description that is not read as one. -/
theorem stop_note {fuel : Nat} {vb : Bounds ℝ} {b : Bool} {E : Names} {c : Cursor ℝ} (hc : Inside vb b E c) {st : PathStyle ℝ} {rest : List (PathStyle ℝ)}
    (hs : c.styleStack = st :: rest) (desc : Bool) :
    ∃ c', readToken fuel (.stop (if desc then "desc" else "title").toList) c = (.ok (), c') ∧ c'.styleStack = rest ∧ Goes vb b E c c' [] [] [] := by
  have h := hc.around
  cases desc with
  | false =>
    refine ⟨{ c with styleStack := rest, inTitleText := false }, ?_, rfl, goes_kept ⟨⟨h.1, h.2, h.3, h.4, h.5, h.6, h.7, rfl, h.9⟩, hc.inGrad, hc.knows, ⟨hc.table.done, hc.table.cur⟩, masks_same hc.masks rfl rfl (memR_refl _)⟩ ⟨rfl, rfl, rfl, memR_refl _⟩⟩
    rw [readToken, readEndElement, SM.bind_run, popStyle, hs]
    rfl
  | true =>
    refine ⟨{ c with styleStack := rest, inDescText := false }, ?_, rfl, goes_kept ⟨⟨h.1, h.2, h.3, h.4, h.5, h.6, h.7, h.8, rfl⟩, hc.inGrad, hc.knows, ⟨hc.table.done, hc.table.cur⟩, masks_same hc.masks rfl rfl (memR_refl _)⟩ ⟨rfl, rfl, rfl, memR_refl _⟩⟩
    rw [readToken, readEndElement, SM.bind_run, popStyle, hs]
    rfl

omit [GoEnv] in
theorem closed_none {s : Definitions} {c c' : Cursor ℝ} (h : TableAt s c) (hd : c.currentDef = []) (h' : SameTable c c' := by exact ⟨rfl, rfl⟩) :
    TableAt s.close c' := by
  have : s.open_ = [] := h.cur.symm.trans hd
  unfold Definitions.close
  rw [this]
  exact table_same h h'

theorem closed_some {s : Definitions} {c c' : Cursor ℝ} (h : TableAt s c) {d : Definition} {ds : List Definition} (hd : c.currentDef = d :: ds)
    (h' : c'.svg.defs = c.svg.defs.insert d.id (d :: ds) ∧ c'.currentDef = [] := by exact ⟨rfl, rfl⟩) : TableAt s.close c' := by
  have : s.open_ = d :: ds := h.cur.symm.trans hd
  unfold Definitions.close
  rw [this]
  exact ⟨fun id => by rw [h'.1]; exact insert_lookup h.done _ _ id, h'.2⟩

/-- The end tag of definitions. -/
theorem stop_definitions {fuel : Nat} {vb : Bounds ℝ} {E : Names} {c : Cursor ℝ} (hc : Inside vb true E c) {st : PathStyle ℝ} {rest : List (PathStyle ℝ)}
    (hs : c.styleStack = st :: rest) : ∃ c', readToken fuel (.stop "defs".toList) c = (.ok (), c') ∧ c'.styleStack = rest ∧ Goes vb false E.close c c' [] [] [] := by
  have h := hc.around
  rcases hd : c.currentDef with _ | ⟨d0, ds⟩
  · refine ⟨{ c with styleStack := rest, inDefs := false }, ?_, rfl, goes_kept ⟨⟨h.1, h.2, h.3, h.4, h.5, rfl, h.7, h.8, h.9⟩, hc.inGrad, hc.knows, closed_none hc.table hd, masks_other hc.masks rfl rfl (memR_refl _) rfl (free_close hc.masks.free)⟩ ⟨rfl, rfl, rfl, memR_refl _⟩⟩
    rw [readToken, readEndElement, SM.bind_run, popStyle, hs]
    dsimp only
    rw [SM.modify_run, if_neg (by decide), if_neg (by decide), if_neg (by decide), if_neg (by decide), if_pos rfl]
    dsimp only
    rw [hd]
  · refine ⟨{ c with styleStack := rest, inDefs := false, currentDef := [], svg := { c.svg with defs := c.svg.defs.insert d0.id (d0 :: ds) } }, ?_, rfl,
      goes_kept ⟨⟨h.1, h.2, h.3, h.4, h.5, rfl, h.7, h.8, h.9⟩, hc.inGrad, knows_same hc.knows rfl rfl, closed_some hc.table hd, masks_other hc.masks rfl rfl (memR_refl _) rfl (free_close hc.masks.free)⟩ ⟨rfl, rfl, rfl, memR_refl _⟩⟩
    rw [readToken, readEndElement, SM.bind_run, popStyle, hs]
    dsimp only
    rw [SM.modify_run, if_neg (by decide), if_neg (by decide), if_neg (by decide), if_neg (by decide), if_pos rfl]
    dsimp only
    rw [hd]

/-- An element that draws nothing. -/
theorem start_plain {fuel : Nat} {name : Str} {df : List Attr → CM ℝ Unit} (hdf : drawFuncs fuel (useF fuel) name = some df) {attrs : List Attr}
    {c c' : Cursor ℝ} (hd : c.inDefs = false ∨ (name = "radialGradient".toList ∨ name = "linearGradient".toList ∨ c.inGrad)) (h : df attrs c = (.ok (), c')) (hp : c'.pc.path = []) :
    readStartElement fuel name attrs c = (.ok (), c') := by
  have : emitPath c' = (.ok (), c') := by unfold emitPath; rw [hp]
  unfold readStartElement
  rw [if_neg (by rintro ⟨h1, h2⟩; rcases hd with hd | hd; exacts [absurd (hd.symm.trans h1) (by decide), h2 hd]), hdf]
  dsimp only
  rw [h]
  dsimp only
  rw [this]

theorem cat_ok {fuel : Nat} {ts us : List Token} {c c' : Cursor ℝ} (h : readTokens fuel ts c = (.ok (), c')) :
    readTokens fuel (ts ++ us) c = readTokens fuel us c' := by
  rw [readTokens_append, SM.bind_run, h]

theorem cons_ok {fuel : Nat} {t : Token} {us : List Token} {c c' : Cursor ℝ} (h : readToken fuel t c = (.ok (), c')) :
    readTokens fuel (t :: us) c = readTokens fuel us c' := by
  rw [readTokens_cons, SM.bind_run, h]

/-- A title or a description. -/
theorem note_inside {fuel : Nat} {vb : Bounds ℝ} {E : Names} {c : Cursor ℝ} (hc : Inside vb false E c) {st : PathStyle ℝ} {rest : List (PathStyle ℝ)}
    (hs : c.styleStack = st :: rest) {l l' : Look} (hl : Wears c.svg.arrays st l) {attrs : List Attr} (hd : DeclaresAll false vb E.grads l (declared attrs) l l')
    {inner : List Token} (hi : NoTags inner) (desc : Bool) :
    ∃ c', readTokens fuel (.start (if desc then "desc" else "title").toList attrs :: (inner ++ [.stop (if desc then "desc" else "title").toList])) c =
      (.ok (), c') ∧ c'.styleStack = st :: rest ∧ Goes vb false E c c' [] (if desc then [] else [textOf inner]) (if desc then [textOf inner] else []) := by
  obtain ⟨c1, st', h1, h2, h3, h4⟩ := push_inside hc hs hl hd
  have h5 := h4.inside.around
  cases desc with
  | false =>
    have hr : readToken fuel (.start "title".toList attrs) c =
        (.ok (), { c1 with inTitleText := true, svg := { c1.svg with titles := c1.svg.titles ++ [[]] } }) := by
      rw [readToken, SM.bind_run, h1]
      exact start_plain (df := titleF) rfl (.inl h5.inDefs) rfl h5.path
    have hq := title_chars (fuel := fuel) (T := c1.svg.titles) (t := [])
      (c := { c1 with inTitleText := true, svg := { c1.svg with titles := c1.svg.titles ++ [[]] } }) hi rfl h5.desc rfl
    have hstop : readToken fuel (.stop "title".toList) { c1 with inTitleText := true, svg := { c1.svg with titles := c1.svg.titles ++ [textOf inner] } } =
        (.ok (), { c1 with inTitleText := false, styleStack := st :: rest, svg := { c1.svg with titles := c1.svg.titles ++ [textOf inner] } }) := by
      rw [readToken, readEndElement, SM.bind_run, popStyle]
      simp only [h2]
      rfl
    refine ⟨{ c1 with inTitleText := false, styleStack := st :: rest, svg := { c1.svg with titles := c1.svg.titles ++ [textOf inner] } }, ?_, rfl,
      ⟨⟨h5.1, h5.2, h5.3, h5.4, h5.5, h5.6, h5.7, rfl, h5.9⟩, h4.inside.inGrad, knows_same h4.inside.knows rfl rfl, ⟨h4.inside.table.done, h4.inside.table.cur⟩, masks_same h4.inside.masks rfl rfl (memR_refl _)⟩, h4.paths, ?_, h4.descs, h4.mem⟩
    · rw [if_neg (by decide), cons_ok hr, cat_ok hq]
      exact cons_ok hstop
    · dsimp only; rw [h4.titles, List.append_nil]; rfl
  | true =>
    have hr : readToken fuel (.start "desc".toList attrs) c =
        (.ok (), { c1 with inDescText := true, svg := { c1.svg with descriptions := c1.svg.descriptions ++ [[]] } }) := by
      rw [readToken, SM.bind_run, h1]
      exact start_plain (df := descF) rfl (.inl h5.inDefs) rfl h5.path
    have hq := desc_chars (fuel := fuel) (T := c1.svg.descriptions) (t := [])
      (c := { c1 with inDescText := true, svg := { c1.svg with descriptions := c1.svg.descriptions ++ [[]] } }) hi h5.title rfl rfl
    have hstop : readToken fuel (.stop "desc".toList)
        { c1 with inDescText := true, svg := { c1.svg with descriptions := c1.svg.descriptions ++ [textOf inner] } } =
        (.ok (), { c1 with inDescText := false, styleStack := st :: rest, svg := { c1.svg with descriptions := c1.svg.descriptions ++ [textOf inner] } }) := by
      rw [readToken, readEndElement, SM.bind_run, popStyle]
      simp only [h2]
      rfl
    refine ⟨{ c1 with inDescText := false, styleStack := st :: rest, svg := { c1.svg with descriptions := c1.svg.descriptions ++ [textOf inner] } }, ?_, rfl,
      ⟨⟨h5.1, h5.2, h5.3, h5.4, h5.5, h5.6, h5.7, h5.8, rfl⟩, h4.inside.inGrad, knows_same h4.inside.knows rfl rfl, ⟨h4.inside.table.done, h4.inside.table.cur⟩, masks_same h4.inside.masks rfl rfl (memR_refl _)⟩, h4.paths, h4.titles, ?_, h4.mem⟩
    · rw [if_pos rfl, cons_ok hr, cat_ok hq]
      exact cons_ok hstop
    · dsimp only; rw [h4.descs, List.append_nil]; rfl

/-- The start tag of a group. -/
theorem group_start {fuel : Nat} {vb : Bounds ℝ} {E : Names} {c : Cursor ℝ} (hc : Inside vb false E c) {st : PathStyle ℝ} {rest : List (PathStyle ℝ)}
    (hs : c.styleStack = st :: rest) {l l' : Look} (hl : Wears c.svg.arrays st l) {attrs : List Attr} (hd : DeclaresAll false vb E.grads l (declared attrs) l l') :
    ∃ c1 st', readToken fuel (.start "g".toList attrs) c = (.ok (), c1) ∧ c1.styleStack = st' :: st :: rest ∧ Wears c1.svg.arrays st' l' ∧ Goes vb false E c c1 [] [] [] := by
  obtain ⟨c1, st', h1, h2, h3, h4⟩ := push_inside hc hs hl hd
  have h5 := h4.inside.around
  refine ⟨c1, st', ?_, h2, h3, h4⟩
  rw [readToken, SM.bind_run, h1]
  exact start_plain (df := gF) rfl (.inl h5.inDefs) rfl h5.path

/-- The start tag of definitions. -/
theorem defs_start {fuel : Nat} {vb : Bounds ℝ} {E : Names} {c : Cursor ℝ} (hc : Inside vb false E c) {st : PathStyle ℝ} {rest : List (PathStyle ℝ)}
    (hs : c.styleStack = st :: rest) {l l' : Look} (hl : Wears c.svg.arrays st l) {attrs : List Attr} (hd : DeclaresAll false vb E.grads l (declared attrs) l l') :
    ∃ c1 st', readToken fuel (.start "defs".toList attrs) c = (.ok (), c1) ∧ c1.styleStack = st' :: st :: rest ∧ Wears c1.svg.arrays st' l' ∧
      Goes vb true E c c1 [] [] [] := by
  obtain ⟨c1, st', h1, h2, h3, h4⟩ := push_inside hc hs hl hd
  have h5 := h4.inside.around
  refine ⟨{ c1 with inDefs := true }, st', ?_, h2, h3, goes_kept ⟨⟨h5.1, h5.2, h5.3, h5.4, h5.5, rfl, h5.7, h5.8, h5.9⟩, h4.inside.inGrad, h4.inside.knows, ⟨h4.inside.table.done, h4.inside.table.cur⟩, masks_same h4.inside.masks rfl rfl (memR_refl _)⟩ ?_⟩
  · rw [readToken, SM.bind_run, h1]
    exact start_plain (df := defsF) rfl (.inl h5.inDefs) rfl h5.path
  · exact h4.kept.trans ⟨rfl, rfl, rfl, memR_refl _⟩

/-- The start tag of an element in definitions. -/
theorem recorded_start {fuel : Nat} {vb : Bounds ℝ} {E : Names} {c : Cursor ℝ} (hc : Inside vb true E c) {st : PathStyle ℝ} {rest : List (PathStyle ℝ)}
    (hs : c.styleStack = st :: rest) {l l' : Look} (hl : Wears c.svg.arrays st l) {name : Str} (hn : ¬ (name = "radialGradient".toList ∨ name = "linearGradient".toList)) (hn' : name ≠ "mask".toList)
    {attrs : List Attr} (hd : DeclaresAll false vb E.grads l (declared attrs) l l') :
    ∃ c1 st', readToken fuel (.start name attrs) c = (.ok (), c1) ∧ c1.styleStack = st' :: st :: rest ∧ Wears c1.svg.arrays st' l' ∧
      Goes vb true (E.record name attrs) c c1 [] [] [] := by
  obtain ⟨c1, st', h1, h2, h3, h4⟩ := push_inside hc hs hl hd
  have h5 := h4.inside.around
  have e := recordDef_eq name attrs c1
  refine ⟨recordDef name attrs c1, st', ?_, ?_, by rw [e]; exact h3, goes_kept ⟨?_, ?_, ?_, ?_, ?_⟩ ?_⟩
  · rw [readToken, SM.bind_run, h1]
    show readStartElement fuel name attrs c1 = _
    unfold readStartElement
    rw [if_pos]
    refine ⟨h5.inDefs, ?_⟩
    rintro (h | h | h)
    · exact hn (.inl h)
    · exact hn (.inr h)
    · rw [h4.inside.inGrad] at h; cases h
  · rw [e]; exact h2
  · rw [e]; exact ⟨h5.1, h5.2, h5.3, h5.4, h5.5, h5.6, h5.7, h5.8, h5.9⟩
  · rw [e]; exact h4.inside.inGrad
  · rw [e]; exact knows_same h4.inside.knows rfl rfl
  · exact recordDef_table h4.inside.table
  · exact masks_other h4.inside.masks (by rw [e]) (by rw [e]) (by rw [e]; exact memR_refl _) rfl (free_record h4.inside.masks.free hn' _)
  · refine h4.kept.trans ?_
    rw [e]; exact ⟨rfl, rfl, rfl, memR_refl _⟩

/-! ### Uses -/

/-- What is stored of an outline. -/
def storedAs (P : Path) (st : PathStyle ℝ) : List (SvgPath ℝ) := if P = [] then [] else [⟨P, st⟩]

omit [GoEnv] in
theorem emit_stored {c : Cursor ℝ} {st : PathStyle ℝ} {rest : List (PathStyle ℝ)} (hs : c.styleStack = st :: rest) (hm : c.inMask = false) :
    emitPath c = (.ok (), { c with pc := { c.pc with path := [] }, svg := { c.svg with svgPaths := c.svg.svgPaths ++ storedAs c.pc.path st } }) := by
  unfold emitPath storedAs
  rcases c with ⟨pc, svg, ss, gr, it, id, ig, df, im, cd, mk⟩
  rcases pc with ⟨path, x, y, cx, cy, kx, ky, sx, sy, ps, lk, em, ip, lg⟩
  dsimp only at hs hm
  subst hs hm
  cases path with
  | nil => simp
  | cons o os => simp

/-- The outline of a shape, drawn with an offset: in any look, it is the figure moved. -/
theorem figures_draw {fuel : Nat} (hf : 1 ≤ fuel) {vb : Bounds ℝ} {name : Str} {attrs : List Attr} {fs : List Figure} (h : Figures vb name attrs fs)
    (hd : Distinct attrs) {c : Cursor ℝ} {st : PathStyle ℝ} {rest : List (PathStyle ℝ)} (hdefs : c.inDefs = false) (hmask : c.inMask = false)
    (hpath : c.pc.path = []) (hs : c.styleStack = st :: rest) (hb : c.svg.viewBox = vb) (hfit : ∀ f ∈ fs, f.fits c.pc.curX c.pc.curY) {l : Look}
    (hl : Wears c.svg.arrays st l) :
    ∃ df c', drawFuncs fuel (useF fuel) name = some df ∧ df attrs c = (.ok (), c') ∧ DrawR c c' ∧
      ∀ mem st' l', Wears mem st' l' → List.Forall₂ (Portrays mem) (storedAs c'.pc.path st') (fs.map fun f => (l', f.moved c.pc.curX c.pc.curY)) := by
  obtain ⟨qs, a, hq⟩ := figures_adds_at hf h hd (c := c) (st := st) ⟨hdefs, hmask, hpath, by rw [hs]; rfl⟩ hb hfit hl
  have htag := figures_tag h
  obtain ⟨df, hdf⟩ : ∃ df, drawFuncs (F := ℝ) fuel (useF fuel) name = some df := by
    simp only [shapeTags, List.mem_cons, List.not_mem_nil, or_false] at htag
    rcases htag with rfl | rfl | rfl | rfl | rfl | rfl | rfl <;> exact ⟨_, rfl⟩
  have hk : DrawR c (df attrs c).2 := by
    rcases drawFuncs_cases hdf with ⟨-, hk⟩ | hk
    · exact hk attrs c
    · exfalso
      rcases hk with ⟨rfl, -⟩ | ⟨rfl, -⟩ | ⟨rfl, -⟩ | ⟨rfl, -⟩ | ⟨rfl, -⟩ | ⟨rfl, -⟩ | ⟨rfl, -⟩ | ⟨rfl, -⟩ | ⟨rfl, -⟩ | ⟨rfl, -⟩ <;>
        exact absurd htag (by decide)
  rcases hr : df attrs c with ⟨r, c'⟩
  rw [hr] at hk
  dsimp only at hk
  have hst : c'.styleStack = st :: rest := by rw [hk.eq]; exact hs
  have hm : c'.inMask = false := by rw [hk.eq]; exact hmask
  have hpaths : c'.svg.svgPaths = c.svg.svgPaths := by rw [hk.eq]
  have hrun : readStartElement fuel name attrs c = match (r, c') with
      | (.ok _, c') => emitPath c'
      | (.err e, c') => match emitPath c' with
        | (.ok (), c) => (.err e, c)
        | (r', c) => (r', c)
      | x => x := by
    unfold readStartElement
    dsimp only
    rw [if_neg (by rw [hdefs]; rintro ⟨h, -⟩; cases h), hdf]
    dsimp only
    rw [hr]
    cases r with
    | ok u =>
      dsimp only
      rcases emitPath _ with ⟨r, c⟩
      cases r <;> rfl
    | err e => dsimp only; rw [emit_stored hst hm]
    | _ => rfl
  obtain ⟨a1, a2, -⟩ := a
  cases r with
  | err e =>
    rw [hrun] at a1
    dsimp only at a1
    rw [emit_stored hst hm] at a1
    cases a1
  | panic e => rw [hrun] at a1; cases a1
  | diverge => rw [hrun] at a1; cases a1
  | ok u =>
    refine ⟨df, c', hdf, hr, hk, fun mem st' l' hl' => ?_⟩
    rw [hrun] at a2
    dsimp only at a2
    rw [emit_stored hst hm] at a2
    have a3 := congrArg Svg.svgPaths a2
    dsimp only at a3
    rw [hpaths] at a3
    have a4 := List.append_cancel_left a3
    subst a4
    unfold storedAs at hq ⊢
    split at hq
    · rename_i hp
      rw [if_pos hp]
      rw [List.forall₂_nil_left_iff, List.map_eq_nil_iff] at hq
      rw [hq]; exact .nil
    · rename_i hp
      rw [if_neg hp]
      rcases fs with _ | ⟨f, _ | ⟨f', fs⟩⟩
      · cases hq
      · cases hq with
        | cons q _ => exact .cons ⟨hl', q.outline⟩ .nil
      · cases hq with
        | cons q q' => cases q'

/-- From one state to another inside a `use`: only the outline changes. -/
structure Drew (c c' : Cursor ℝ) : Prop where
  viewBox : c'.svg.viewBox = c.svg.viewBox
  mode : c'.pc.errorMode = c.pc.errorMode
  curX : c'.pc.curX = c.pc.curX
  curY : c'.pc.curY = c.pc.curY
  paths : c'.svg.svgPaths = c.svg.svgPaths
  flag : FlagR c c'
  grad : GradSame c c'
  table : SameTable c c'
  mem : MemR c.svg.arrays c'.svg.arrays
  masks : c'.svg.svgMasks = c.svg.svgMasks

theorem Drew.trans {c d e : Cursor ℝ} (h : Drew c d) (h' : Drew d e) : Drew c e :=
  ⟨h'.1.trans h.1, h'.2.trans h.2, h'.3.trans h.3, h'.4.trans h.4, h'.5.trans h.5, flagR_pre.trans h.6 h'.6, gradSame_pre.trans h.7 h'.7,
    ⟨h'.8.1.trans h.8.1, h'.8.2.trans h.8.2⟩, memR_trans h.9 h'.9, h'.10.trans h.10⟩

/-- The definition of one shape is drawn. -/
theorem sole_draws {n : Nat} (hf : 1 ≤ n) {vb : Bounds ℝ} {E : Palette} {l : Look} {name : Str} {as : List Attr} {ds : List Definition}
    (h : Sole vb E l name as ds) (hd : Distinct as) {fs : List Figure} (hfig : Figures vb name as fs) :
    ∀ {c : Cursor ℝ} {st : PathStyle ℝ} {rest : List (PathStyle ℝ)} (es : List Definition), c.inDefs = false → c.inMask = false → c.pc.path = [] →
      c.svg.viewBox = vb → Knows E c.svg → c.styleStack = st :: rest → Wears c.svg.arrays st l → (∀ f ∈ fs, f.fits c.pc.curX c.pc.curY) →
      ∃ c', useLoop (drawFuncs n (useF n)) (ds ++ es) c = useLoop (drawFuncs n (useF n)) es c' ∧ c'.styleStack = st :: rest ∧ Drew c c' ∧
        ∀ mem st' l', Wears mem st' l' → List.Forall₂ (Portrays mem) (storedAs c'.pc.path st') (fs.map fun f => (l', f.moved c.pc.curX c.pc.curY)) := by
  have htag := figures_tag hfig
  have hne : name ≠ "endg".toList ∧ name ≠ "g".toList := by
    have : ∀ t ∈ shapeTags, t ≠ "endg".toList ∧ t ≠ "g".toList := by decide
    exact this name htag
  induction h with
  | @shape id hdec =>
    intro c st rest es hdefs hmask hpath hbox hE hs hl hfit
    obtain ⟨c1, st1, h1, h2, h3, h4, h5, h6, h7, h8, h9⟩ := push_any hbox hE hs hl hdec
    obtain ⟨df, c2, d1, d2, d3, d4⟩ := figures_draw hf hfig hd (c := c1) (h4.inDefs.trans hdefs) (h4.inMask.trans hmask) (h4.path.trans hpath) h2
      (h4.viewBox.trans hbox) (by rw [h4.curX, h4.curY]; exact hfit) h3
    rw [h4.curX, h4.curY] at d4
    have hst : c2.styleStack = st1 :: st :: rest := by rw [d3.eq]; exact h2
    refine ⟨{ c2 with styleStack := st :: rest }, ?_, rfl, ?_, d4⟩
    · rw [List.singleton_append, useLoop, if_neg hne.1, SM.bind_run, h1]
      dsimp only
      rw [d1]
      dsimp only
      rw [SM.bind_run, d2, if_pos hne.2]
      dsimp only
      rw [SM.bind_run]
      unfold popStyle
      rw [hst]
    · have e := d3.eq
      have k1 : Drew c c1 := ⟨h4.viewBox, h4.mode, h4.curX, h4.curY, h4.paths, h5, h6, h7, h8, h9⟩
      have k2 : Drew c1 c2 := ⟨by rw [e], d3.mode, d3.curX, d3.curY, by rw [e],
        ⟨by rw [e], by rw [e], by rw [e], by rw [e], by rw [e], by rw [e], by rw [e], by rw [e]⟩, ⟨by rw [e], by rw [e], by rw [e], by rw [e]⟩, ⟨by rw [e], by rw [e]⟩, by rw [e]; exact memR_refl _, by rw [e]⟩
      have k := k1.trans k2
      exact ⟨k.1, k.2, k.3, k.4, k.5, ⟨k.6.1, k.6.2, k.6.3, k.6.4, k.6.5, k.6.6, k.6.7, k.6.8⟩, ⟨k.7.1, k.7.2, k.7.3, k.7.4⟩, k.8, k.9, k.10⟩
  | @group id as' ds hdec hS ih =>
    intro c st rest es hdefs hmask hpath hbox hE hs hl hfit
    obtain ⟨c1, st1, h1, h2, h3, h4, h5, h6, h7, h8, h9⟩ := push_any hbox hE hs hl hdec
    obtain ⟨c2, i1, i2, i3, i4⟩ := ih (endOfGroup :: es) (h4.inDefs.trans hdefs) (h4.inMask.trans hmask) (h4.path.trans hpath) (h4.viewBox.trans hbox)
      (knows_same hE h6.grads h6.heap) h2 h3 (by rw [h4.curX, h4.curY]; exact hfit)
    rw [h4.curX, h4.curY] at i4
    refine ⟨{ c2 with styleStack := st :: rest }, ?_, rfl, ?_, i4⟩
    · rw [List.cons_append, List.append_assoc, List.singleton_append, useLoop, if_neg (by decide : "g".toList ≠ "endg".toList), SM.bind_run, h1]
      dsimp only
      have : drawFuncs (F := ℝ) n (useF n) "g".toList = some gF := rfl
      rw [this]
      dsimp only
      have hg : gF as' c1 = (.ok (), c1) := rfl
      rw [SM.bind_run, hg, if_neg (by decide)]
      refine Eq.trans i1 ?_
      rw [useLoop, if_pos (show endOfGroup.tag = "endg".toList from rfl), SM.bind_run]
      unfold popStyle
      rw [i2]
    · have k1 : Drew c c1 := ⟨h4.viewBox, h4.mode, h4.curX, h4.curY, h4.paths, h5, h6, h7, h8, h9⟩
      have k := k1.trans i3
      exact ⟨k.1, k.2, k.3, k.4, k.5, ⟨k.6.1, k.6.2, k.6.3, k.6.4, k.6.5, k.6.6, k.6.7, k.6.8⟩, ⟨k.7.1, k.7.2, k.7.3, k.7.4⟩, k.8, k.9, k.10⟩

theorem use_reads {vb : Bounds ℝ} {attrs : List Attr} (hd : Distinct attrs) {x y : ℝ} (h1 : Len vb attrs "x" .width x) (h2 : Len vb attrs "y" .height y) :
    ∃ v, Res.loop (useAttr vb) ⟨[], num 0, num 0⟩ attrs = .ok v := by
  refine loop_total attrs (fun a ha b => ?_) _
  unfold useAttr
  split
  · exact ⟨_, rfl⟩
  · split
    · rename_i h; rw [len_resolves hd h1 ha h]; exact ⟨_, rfl⟩
    · split
      · rename_i h; rw [len_resolves hd h2 ha h]; exact ⟨_, rfl⟩
      · exact ⟨_, rfl⟩

/-- The start tag of a `use`. -/
theorem use_shows {n : Nat} (hf : 1 ≤ n) {vb : Bounds ℝ} {E : Names} {c : Cursor ℝ} (hc : Inside vb false E c) {st : PathStyle ℝ}
    {rest : List (PathStyle ℝ)} (hs : c.styleStack = st :: rest) {l l' : Look} (hl : Wears c.svg.arrays st l) {attrs : List Attr} (hdi : Distinct attrs)
    (hd : DeclaresAll false vb E.grads l (declared attrs) l l') {id : Str} (hid : refOf attrs = some id) {ds : List Definition}
    (hds : E.defs.done.lookup id = some ds) {name : Str} {as : List Attr} (hS : Sole vb E.grads l' name as ds) (hda : Distinct as) {fs : List Figure}
    (h : Figures vb name as fs) {x y : ℝ} (hx : Measures vb attrs "x" .width x) (hy : Measures vb attrs "y" .height y) (hfit : ∀ f ∈ fs, f.fits x y) :
    ∃ c1 st' qs, readToken (n + 1) (.start "use".toList attrs) c = (.ok (), c1) ∧ c1.styleStack = st' :: st :: rest ∧ Goes vb false E c c1 qs [] [] ∧
      List.Forall₂ (Portrays c1.svg.arrays) qs (fs.map fun f => (l', f.moved x y)) := by
  obtain ⟨c1, st', h1, h2, h3, h4⟩ := push_inside hc hs hl hd
  have hA := h4.inside.around
  obtain ⟨v, hv⟩ := use_reads hdi (measures_len hx) (measures_len hy)
  obtain ⟨vx, vy⟩ := use_vars hdi (measures_len hx) (measures_len hy) hv
  obtain ⟨c2, i1, i2, i3, i4⟩ := sole_draws hf hS hda h (c := { c1 with pc := { c1.pc with curX := x, curY := y } }) [] hA.inDefs hA.inMask hA.path hA.viewBox
    h4.inside.knows h2 h3 hfit
  have hbody : useBody (drawFuncs n (useF n)) (lastNamed "href" attrs) { c1 with pc := { c1.pc with curX := x, curY := y } } = (.ok (), c2) := by
    have hfind : c1.svg.defs.find id = some ds := (h4.inside.table.done id).trans hds
    rcases useBody_cases (drawFuncs n (useF n)) attrs { c1 with pc := { c1.pc with curX := x, curY := y } } with
      ⟨-, h', -⟩ | ⟨-, h', -⟩ | ⟨id', h', hf', -⟩ | ⟨id', ds', h', hf', hb⟩
    · rw [h'] at hid; cases hid
    · rw [h'] at hid; cases hid
    · rw [h'] at hid; cases hid; rw [hfind] at hf'; cases hf'
    · rw [h'] at hid; cases hid; rw [hfind] at hf'; cases hf'
      rw [hb, ← List.append_nil ds, i1]; rfl
  have huse : useF (n + 1) attrs c1 = (.ok (), { c2 with pc := { c2.pc with curX := num 0, curY := num 0 } }) := by
    rcases useF_cases n attrs c1 with ⟨e, he, -⟩ | ⟨v', hv', hu⟩
    · rw [hA.viewBox, hv] at he; cases he
    · rw [hA.viewBox, hv] at hv'
      cases hv'
      rw [hu, vx, vy]
      unfold withOffset
      rw [hbody]
  generalize hc3 : ({ c2 with pc := { c2.pc with curX := num 0, curY := num 0 } } : Cursor ℝ) = c3 at huse
  have hst3 : c3.styleStack = st' :: st :: rest := by rw [← hc3]; exact i2
  have hm3 : c3.inMask = false := by rw [← hc3]; exact i3.flag.inMask.trans hA.inMask
  have hrun : readToken (n + 1) (.start "use".toList attrs) c = emitPath c3 := by
    rw [readToken, SM.bind_run, h1]
    show readStartElement (n + 1) "use".toList attrs c1 = _
    unfold readStartElement
    dsimp only
    rw [if_neg (by rw [hA.inDefs]; rintro ⟨h, -⟩; cases h), drawFuncs_use]
    dsimp only
    rw [huse]
    dsimp only
    rcases emitPath _ with ⟨r, c⟩
    cases r <;> rfl
  rw [emit_stored hst3 hm3] at hrun
  have hp3 : c3.pc.path = c2.pc.path := by rw [← hc3]
  refine ⟨_, st', storedAs c3.pc.path st', hrun, hst3, ⟨⟨⟨?_, ?_, rfl, ?_, ?_, ?_, hm3, ?_, ?_⟩, ?_, ?_, ?_, ?_⟩, ?_, ?_, ?_, ?_⟩,
    by rw [hp3]; exact i4 _ st' l' (wears_mono (by rw [← hc3]; exact i3.mem) h3)⟩
  · rw [← hc3]; exact i3.viewBox.trans hA.viewBox
  · rw [← hc3]; exact i3.mode.trans hA.mode
  · rw [← hc3]
  · rw [← hc3]
  · rw [← hc3]; exact i3.flag.inDefs.trans hA.inDefs
  · rw [← hc3]; exact i3.flag.inTitle.trans hA.title
  · rw [← hc3]; exact i3.flag.inDesc.trans hA.desc
  · rw [← hc3]; exact i3.flag.inGrad.trans h4.inside.inGrad
  · rw [← hc3]; exact knows_same h4.inside.knows i3.grad.grads i3.grad.heap
  · rw [← hc3]; exact table_same h4.inside.table i3.table
  · rw [← hc3]; exact masks_same h4.inside.masks i3.flag.mask i3.masks i3.mem
  · rw [← hc3]
    show c2.svg.svgPaths ++ _ = _
    rw [i3.paths]
    show c1.svg.svgPaths ++ _ = _
    rw [h4.paths, List.append_nil]
  · rw [← hc3]; exact i3.flag.titles.trans h4.titles
  · rw [← hc3]; exact i3.flag.descs.trans h4.descs
  · rw [← hc3]; exact memR_trans h4.mem i3.mem

/-! ### Gradients -/

omit [GoEnv] in
theorem says_all {α : Type} {R : Str → α → Prop} {d : α} {vs : List Str} {x : α} (h : Says R d vs x) : ∀ v ∈ vs, ∃ y, R v y := by
  cases h with
  | absent => exact fun v hv => nomatch hv
  | @given vs v x h1 h2 =>
    intro u hu
    rcases List.mem_append.1 hu with hu | hu
    · exact h1 u hu
    · cases List.mem_singleton.1 hu; exact ⟨x, h2⟩

theorem says_last {α : Type} {R : Str → α → Prop} {read : Str → Res α} (hR : ∀ {v x}, R v x → read v = .ok x) {d : α} {vs : List Str} {x : α}
    (h : Says R d vs x) : ReadLast read d vs x := by
  cases h with
  | absent => rfl
  | given h1 h2 => exact readLast_snoc (hR h2)

omit [GoEnv] in
theorem readLast_unique {α : Type} {read : Str → Res α} {d : α} {vs : List Str} {x y : α} (h : ReadLast read d vs x) (h' : ReadLast read d vs y) : x = y := by
  unfold ReadLast at h h'
  cases hv : vs.getLast? with
  | none => rw [hv] at h h'; exact h.trans h'.symm
  | some v => rw [hv] at h h'; exact Res.ok.inj (h.symm.trans h')

theorem says_len {box : Bounds ℝ} {attrs : List Attr} {n : String} {ref : PercRef} {d x : ℝ} {t : Str}
    (h : Says (LengthText box ref) d (valuesNamed n attrs) x) (hd : resolveUnit box t ref = .ok d) : GradLen box attrs n t ref x := by
  unfold GradLen
  generalize valuesNamed n attrs = vs at h
  cases h with
  | absent => exact hd
  | given h1 h2 => rw [List.getLast?_concat]; exact lengthText_read h2

theorem len_percent (box : Bounds ℝ) (ref : PercRef) : resolveUnit box "0%".toList ref = .ok 0 ∧ resolveUnit box "0".toList ref = .ok 0 ∧
    resolveUnit box "100%".toList ref = .ok (refLength box ref) ∧ resolveUnit box "50%".toList ref = .ok (refLength box ref / 2) := by
  have h : ∀ (s : Str) (hs : (⟨false, s, none, none⟩ : Spelling).WF), resolveUnit box (s ++ "%".toList) ref =
      .ok (((⟨false, s, none, none⟩ : Spelling).value : ℝ) / 100 * refLength box ref) := by
    intro s hs
    have := lengthText_read (LengthText.percent (vb := box) (ref := ref) _ hs (w := []) (w' := []) (w'' := []) (fun _ h => nomatch h)
      (fun _ h => nomatch h) (fun _ h => nomatch h))
    simpa [Spelling.text, Spelling.body] using this
  refine ⟨?_, ?_, ?_, ?_⟩
  · have := h "0".toList (by decide +kernel)
    simpa [Spelling.value, Spelling.absValue, natVal] using this
  · have := lengthText_read (LengthText.unit (vb := box) (ref := ref) ⟨false, "0".toList, none, none⟩ (by decide +kernel) (u := []) (f := 1) (by decide)
      (w := []) (w' := []) (w'' := []) (fun _ h => nomatch h) (fun _ h => nomatch h) (fun _ h => nomatch h))
    simpa [Spelling.text, Spelling.body, Spelling.value, Spelling.absValue, natVal] using this
  · have := h "100".toList (by decide +kernel)
    simpa [Spelling.value, Spelling.absValue, natVal] using this
  · have := h "50".toList (by decide +kernel)
    have e : ((50 : ℝ) / 100 * refLength box ref) = refLength box ref / 2 := by ring
    rw [show "50%".toList = "50".toList ++ "%".toList from rfl, this, ← e]
    simp [Spelling.value, Spelling.absValue, natVal]

theorem direction_read {box : Bounds ℝ} {attrs : List Attr} {radial : Bool} {d : Direction ℝ} (h : HasDirection box attrs radial d) :
    DirectionOf box attrs (gradName radial) d := by
  have hp := len_percent box
  cases h with
  | linear h1 h2 h3 h4 =>
    exact .linear (says_len h1 (hp _).1) (says_len h2 (hp _).1) (says_len h3 (hp _).2.2.1) (says_len h4 (hp _).2.1)
  | radial h1 h2 h3 h4 h5 h6 =>
    have k1 := says_len h1 (hp _).2.2.2
    have k2 := says_len h2 (hp _).2.2.2
    exact .radial k1 k2 (says_len h3 k1) (says_len h4 k2) (says_len h5 (hp _).2.2.2) (says_len h6 (hp _).2.2.2)

/-- The transform of a gradient is read. -/
theorem matrix_read {l : Look} {attrs : List Attr} {m : Matrix2D ℝ} (h : HasMatrix l attrs m) {st : PathStyle ℝ} {rest : List (PathStyle ℝ)}
    (hl : SameLook st l) : TransformsRead (st :: rest) attrs ∧ ∀ m', MatrixRead (some st.transform) (valuesNamed "gradientTransform" attrs) m' → m' = m := by
  cases h with
  | absent h1 h2 =>
    unfold TransformsRead
    rw [h1]
    refine ⟨fun v hv => (nomatch hv), fun m' hm' => ?_⟩
    rw [matrixRead_none hm' rfl]
    exact (identity_of h2).symm
  | @given ts last fs h1 h2 h3 h4 h5 h6 h7 =>
    have hid : st.transform = Matrix2D.identity := identity_of fun p => by rw [hl.place, h3]; rfl
    obtain ⟨m0, e1, e2⟩ := stepAll_identity h5 h6
    have hr : ∀ (c : Cursor ℝ) (t : PathStyle ℝ) (r : List (PathStyle ℝ)), c.styleStack = t :: r → t.transform = Matrix2D.identity →
        (parseTransform (listText ts last) c).1 = .ok m0 := by
      intro c t r hc ht
      rw [parseTransform_list ts h4 h2 hc, ht, e1]
    unfold TransformsRead
    rw [h1]
    refine ⟨fun v hv c hc => ?_, fun m' hm' => ?_⟩
    · cases List.mem_singleton.1 hv
      exact ⟨m0, hr c st rest hc hid⟩
    · simp only [MatrixRead, List.getLast?_singleton] at hm'
      obtain ⟨b, hb, hm⟩ := hm'
      cases hb
      have := hm { (initCursor (F := ℝ) .strict) with styleStack := [st] } st [] rfl rfl
      rw [hr { (initCursor (F := ℝ) .strict) with styleStack := [st] } st [] rfl hid] at this
      cases this
      exact matrix_of fun p => by rw [e2, h7]

/-- In a gradient, whose content so far is `g`. -/
structure InGradient (vb : Bounds ℝ) (b : Bool) (heap : List (Gradient ℝ)) (g : Gradient ℝ) (c : Cursor ℝ) : Prop where
  around : Around vb b c
  inGrad : c.inGrad = true
  grad : c.grad = some heap.length
  heap : c.svg.gradHeap = heap ++ [g]

/-- The stops of a gradient are read. -/
theorem stops_read {fuel : Nat} {vb : Bounds ℝ} {b : Bool} {heap : List (Gradient ℝ)} {l : Look} {body : List StopNode} {stops : List (GradStop ℝ)}
    (h : Stops vb l body stops) : ∀ {g : Gradient ℝ} {c : Cursor ℝ} {st : PathStyle ℝ} {rest : List (PathStyle ℝ)}, InGradient vb b heap g c →
      c.styleStack = st :: rest → Wears c.svg.arrays st l → ∃ c', readTokens fuel (body.flatMap StopNode.tokens) c = (.ok (), c') ∧ c'.styleStack = st :: rest ∧
        InGradient vb b heap { g with stops := g.stops ++ stops } c' ∧ Kept c c' ∧ c'.svg.grads = c.svg.grads ∧ SameTable c c' ∧ c'.mask = c.mask ∧ c'.svg.svgMasks = c.svg.svgMasks := by
  induction h with
  | nil => intro g c st rest hc hs hl; exact ⟨c, rfl, hs, by simpa using hc, ⟨rfl, rfl, rfl, memR_refl _⟩, rfl, ⟨rfl, rfl⟩, rfl, rfl⟩
  | @misc t ns ss ht h ih =>
    intro g c st rest hc hs hl
    obtain ⟨c', e1, e2⟩ := ih hc hs hl
    refine ⟨c', ?_, e2⟩
    rw [List.flatMap_cons, StopNode.tokens, cat_ok (misc_around hc.around ht), e1]
  | @stop attrs l' inner s ns ss hd hi hst h ih =>
    intro g c st rest hc hs hl
    obtain ⟨c1, st', h1, h2, h3, h4, h5, h6, h7, h8, h9⟩ := push_around hc.around knows_none hs hl hd
    have e0 : (num 0 : ℝ) = 0 := by simp
    have e1 : (num 1 : ℝ) = 1 := by simp
    have hin : c1.inGrad = true := h5.inGrad.trans hc.inGrad
    obtain ⟨s', k1, k2⟩ := stopF_total (attrs := attrs) (c := c1) (heap := heap) (g := g) hin (h5.grad.trans hc.grad) (h5.heap.trans hc.heap)
      (fun v hv => (says_all hst.offset v hv).imp fun _ h => fractionText_read h) (fun v hv => (says_all hst.opacity v hv).imp fun _ h => numberText_read h)
      (fun v hv => (says_all hst.color v hv).imp fun _ h => (paintText_read h).1)
    have hss : s' = s := by
      have q1 := k1.offset
      have q2 := k1.opacity
      rw [e0] at q1
      rw [e1] at q2
      have a1 := readLast_unique q1 (says_last (read := readFraction) fractionText_read hst.offset)
      have a2 := readLast_unique q2 (says_last (read := parseBasicFloat) numberText_read hst.opacity)
      have a3 := readLast_unique k1.color (says_last (read := parseSVGColor) (fun h => (paintText_read h).1) hst.color)
      cases s; cases s'
      dsimp only at a1 a2 a3
      rw [a1, a2, a3]
    subst hss
    generalize hc2 : ({ c1 with svg := { c1.svg with gradHeap := heap ++ [{ g with stops := g.stops ++ [s'] }] } } : Cursor ℝ) = c2 at k2
    have hA : Around vb b c2 := by rw [← hc2]; exact ⟨h4.1, h4.2, h4.3, h4.4, h4.5, h4.6, h4.7, h4.8, h4.9⟩
    have hr : readToken fuel (.start "stop".toList attrs) c = (.ok (), c2) := by
      rw [readToken, SM.bind_run, h1]
      exact start_plain (df := stopF) rfl (.inr (.inr (.inr hin))) k2 hA.path
    have hs2 : c2.styleStack = st' :: st :: rest := by rw [← hc2]; exact h2
    have hstop := stop_simple (fuel := fuel) hs2 (name := "stop".toList) (by decide)
    obtain ⟨c', f1, f2, f3, f4, f5, f6, f7, f8⟩ := ih (g := { g with stops := g.stops ++ [s'] }) (c := { c2 with styleStack := st :: rest }) (st := st) (rest := rest)
      ⟨hA.stack _, by rw [← hc2]; exact hin, by rw [← hc2]; exact h5.grad.trans hc.grad, by rw [← hc2]⟩ rfl (by rw [← hc2]; exact wears_mono h6.mem hl)
    refine ⟨c', ?_, f2, by simpa using f3, ?_, ?_, ?_, ?_, ?_⟩
    · rw [List.flatMap_cons, StopNode.tokens, List.cons_append, List.append_assoc, cons_ok hr, cat_ok (misc_around hA hi), List.singleton_append,
        cons_ok hstop, f1]
    · refine h6.trans (Kept.trans ?_ f4)
      rw [← hc2]; exact ⟨rfl, rfl, rfl, memR_refl _⟩
    · rw [f5, ← hc2]; exact h5.grads
    · rw [← hc2] at f6; exact ⟨f6.1.trans h7.1, f6.2.trans h7.2⟩
    · rw [← hc2] at f7; exact f7.trans h8
    · rw [← hc2] at f8; exact f8.trans h9

/-- A gradient is read. -/
theorem gradient_read {fuel : Nat} {vb : Bounds ℝ} {b : Bool} {E : Names} {c : Cursor ℝ} (hc : Inside vb b E c) {st : PathStyle ℝ}
    {rest : List (PathStyle ℝ)} (hs : c.styleStack = st :: rest) {l l' : Look} (hl : Wears c.svg.arrays st l) {attrs : List Attr}
    (hd : DeclaresAll false vb E.grads l (declared attrs) l l') {body : List StopNode} {stops : List (GradStop ℝ)} (hS : Stops vb l' body stops)
    {radial : Bool} {g : Gradient ℝ} (hg : IsGradient vb l' radial attrs stops g) (hst : ∀ s ∈ stops, s.stopColor ≠ none) :
    ∃ c', readTokens fuel (.start (gradName radial) attrs :: (body.flatMap StopNode.tokens ++ [.stop (gradName radial)])) c = (.ok (), c') ∧
      c'.styleStack = st :: rest ∧ Goes vb b (E.define attrs g) c c' [] [] [] := by
  obtain ⟨c1, st', h1, h2, h3, h4, h5, h6, h7, h8, h9⟩ := push_around hc.around hc.knows hs hl hd
  obtain ⟨d, hd1, hd2⟩ := hg.direction
  have hdir := direction_read hd2
  rw [← h4.viewBox] at hdir
  obtain ⟨t1, t2⟩ := matrix_read hg.matrix (rest := st :: rest) h3.look
  rw [← h2] at t1
  obtain ⟨df, c2, hdf, hrun, hleft⟩ : ∃ df c2, drawFuncs fuel (useF fuel) (gradName radial) = some df ∧ df attrs c1 = (.ok (), c2) ∧ GradLeft attrs d c1 c2 := by
    cases radial with
    | false => obtain ⟨c2, q1, q2⟩ := linearGradientF_total t1 hdir; exact ⟨_, c2, rfl, q1, q2⟩
    | true => obtain ⟨c2, q1, q2⟩ := radialGradientF_total t1 hdir; exact ⟨_, c2, rfl, q1, q2⟩
  have hb := hleft.body.eq
  obtain ⟨m, hm1, hm2⟩ := hleft.heap
  rw [show topTransform c1 = some st'.transform by unfold topTransform; rw [h2]; rfl] at hm2
  have hm := t2 m hm2
  subst hm
  have hA : Around vb b c2 := by rw [hb]; exact ⟨h4.1, h4.2, h4.3, h4.4, h4.5, h4.6, h4.7, h4.8, h4.9⟩
  have hname : gradName radial = "radialGradient".toList ∨ gradName radial = "linearGradient".toList := by cases radial; exacts [.inr rfl, .inl rfl]
  have hr : readToken fuel (.start (gradName radial) attrs) c = (.ok (), c2) := by
    rw [readToken, SM.bind_run, h1]
    exact start_plain hdf (.inr (hname.imp_right .inl)) hrun hA.path
  have hs2 : c2.styleStack = st' :: st :: rest := by rw [hb]; exact h2
  obtain ⟨c3, f1, f2, f3, f4, f5, f6, f7, f8⟩ := stops_read (fuel := fuel) hS ⟨hA, by rw [hb]; rfl, hleft.grad, hm1⟩ hs2 (by rw [hb]; exact h3)
  have hstop : readToken fuel (.stop (gradName radial)) c3 = (.ok (), { c3 with styleStack := st :: rest, inGrad := false }) := by
    rw [readToken, readEndElement, SM.bind_run, popStyle, f2]
    cases radial <;> rfl
  have hA3 := f3.around
  have hgeq : ({ direction := some d, stops := [] ++ stops, bounds := c1.svg.viewBox, matrix := g.matrix, spread := spreadOf attrs, units := unitsOf attrs } :
      Gradient ℝ) = g := by
    rw [List.nil_append, h4.viewBox, ← hg.stops, ← hg.bounds, ← hg.spread, ← hg.units, ← hd1]
  have hheap : c3.svg.gradHeap = c.svg.gradHeap ++ [g] := by rw [f3.heap, ← h5.heap]; exact congrArg (fun x => c1.svg.gradHeap ++ [x]) hgeq
  refine ⟨{ c3 with styleStack := st :: rest, inGrad := false }, ?_, rfl, goes_kept ⟨⟨hA3.1, hA3.2, hA3.3, hA3.4, hA3.5, hA3.6, hA3.7, hA3.8, hA3.9⟩, rfl, ?_, ?_, ?_⟩ ?_⟩
  · rw [cons_ok hr, cat_ok f1, cons_ok hstop]; rfl
  · intro id g' hid
    dsimp only
    rw [hheap, f5, hleft.names, h5.heap, h5.grads]
    unfold Names.define Palette.define at hid
    dsimp only at hid
    split at hid
    · rename_i hmem
      cases hid
      rw [if_pos hmem]
      exact ⟨by rw [hg.stops]; exact hst, _, rfl, by simp⟩
    · rename_i hmem
      rw [if_neg hmem]
      obtain ⟨k1, addr, k2, k3⟩ := hc.knows id g' hid
      exact ⟨k1, addr, k2, by rw [List.getElem?_append_left (List.getElem?_eq_some_iff.1 k3).1]; exact k3⟩
  · rw [hb] at f6
    exact table_same hc.table ⟨f6.1.trans h7.1, f6.2.trans h7.2⟩
  · refine masks_other hc.masks (f7.trans ?_) (f8.trans ?_) (memR_trans h6.mem (memR_trans ?_ f4.mem)) rfl hc.masks.free
    · rw [hb]; exact h8
    · rw [hb]; exact h9
    · rw [hb]; exact memR_refl _
  · refine h6.trans (Kept.trans ?_ (f4.trans ⟨rfl, rfl, rfl, memR_refl _⟩))
    rw [hb]; exact ⟨rfl, rfl, rfl, memR_refl _⟩

theorem stops_some {vb : Bounds ℝ} {l : Look} {body : List StopNode} {stops : List (GradStop ℝ)} (h : Stops vb l body stops) :
    ∀ s ∈ stops, s.stopColor ≠ none := by
  induction h with
  | nil => exact fun s hs => nomatch hs
  | misc _ _ ih => exact ih
  | stop _ _ hst _ ih =>
    intro s hs
    rcases List.mem_cons.1 hs with rfl | hs
    · exact hst.some
    · exact ih s hs

/-! ### Contents -/

omit [GoEnv] in
theorem node_split (a b : Token) (i n : List Token) : a :: (i ++ b :: n) = (a :: (i ++ [b])) ++ n := by simp

/-- Definitions are read. -/
theorem defines_read {fuel : Nat} {vb : Bounds ℝ} {l : Look} {E E' : Names} {T : Nodes} (h : Defines vb l E T E') :
    ∀ {c : Cursor ℝ} {st : PathStyle ℝ} {rest : List (PathStyle ℝ)}, Inside vb true E c → c.styleStack = st :: rest → Wears c.svg.arrays st l →
      ∃ c', readTokens fuel T.tokens c = (.ok (), c') ∧ c'.styleStack = st :: rest ∧ Goes vb true E' c c' [] [] [] := by
  induction h with
  | nil => intro c st rest hc hs hl; exact ⟨c, rfl, hs, Goes.refl hc⟩
  | @misc l E t next E' ht h ih =>
    intro c st rest hc hs hl
    obtain ⟨c', e1, e2, e3⟩ := ih hc hs hl
    refine ⟨c', ?_, e2, e3⟩
    rw [Nodes.tokens, show t :: next.tokens = [t] ++ next.tokens from rfl, cat_ok (misc_around hc.around ht), e1]
  | @note l l' E desc attrs inner next E' hd hi h ih =>
    intro c st rest hc hs hl
    obtain ⟨c1, st', k1, k2, -, k4⟩ := recorded_start (fuel := fuel) hc hs hl (name := (if desc then "desc" else "title").toList) (by cases desc <;> decide) (by cases desc <;> decide) hd
    obtain ⟨c2, j1, j2, j3⟩ := stop_note (fuel := fuel) k4.inside k2 desc
    obtain ⟨c', e1, e2, e3⟩ := ih j3.inside j2 (wears_mono (memR_trans k4.mem j3.mem) hl)
    refine ⟨c', ?_, e2, k4.trans (j3.trans e3)⟩
    rw [Nodes.tokens, cons_ok k1, cat_ok (misc_around k4.inside.around hi), cons_ok j1, e1]
  | @group l l' E attrs kids E' next E'' hd hk hn ihk ihn =>
    intro c st rest hc hs hl
    obtain ⟨c1, st', k1, k2, k3, k4⟩ := recorded_start (fuel := fuel) hc hs hl (name := "g".toList) (by decide) (by decide) hd
    obtain ⟨c2, e1, e2, e3⟩ := ihk k4.inside k2 k3
    obtain ⟨c3, j1, j2, j3⟩ := stop_group (fuel := fuel) e3.inside e2
    obtain ⟨c', f1, f2, f3⟩ := ihn j3.inside j2 (wears_mono (memR_trans k4.mem (memR_trans e3.mem j3.mem)) hl)
    refine ⟨c', ?_, f2, k4.trans (e3.trans (j3.trans f3))⟩
    rw [Nodes.tokens, cons_ok k1, cat_ok e1, cons_ok j1, f1]
  | @shape l l' E name attrs inner next E' hname hd hi h ih =>
    intro c st rest hc hs hl
    have hne : ∀ n ∈ shapeTags, ¬ (n = "radialGradient".toList ∨ n = "linearGradient".toList) := by decide
    have hne' : ∀ n ∈ shapeTags, n ≠ "mask".toList := by decide
    obtain ⟨c1, st', k1, k2, -, k4⟩ := recorded_start (fuel := fuel) hc hs hl (hne name hname) (hne' name hname) hd
    have hstop := stop_simple (fuel := fuel) k2 (List.mem_cons_of_mem _ (List.mem_cons_of_mem _ (List.mem_cons_of_mem _ hname)))
    obtain ⟨c', e1, e2, e3⟩ := ih (c := { c1 with styleStack := st :: rest }) (k4.inside.stack _) rfl (wears_mono k4.mem hl)
    refine ⟨c', ?_, e2, k4.trans ((goes_kept (c := c1) (k4.inside.stack (st :: rest)) ⟨rfl, rfl, rfl, memR_refl _⟩).trans e3)⟩
    rw [Nodes.tokens, cons_ok k1, cat_ok (misc_around k4.inside.around hi), cons_ok hstop, e1]
  | @gradient l l' E radial attrs body stops g next E' hd hS hg h ih =>
    intro c st rest hc hs hl
    obtain ⟨c1, k1, k2, k3⟩ := gradient_read (fuel := fuel) hc hs hl hd hS hg (stops_some hS)
    obtain ⟨c', e1, e2, e3⟩ := ih k3.inside k2 (wears_mono k3.mem hl)
    refine ⟨c', ?_, e2, k3.trans e3⟩
    rw [Nodes.tokens, node_split, cat_ok k1, e1]

/-- The region and the name of a mask. -/
theorem maskF_run {vb : Bounds ℝ} {attrs : List Attr} (hdi : Distinct attrs) {id : Str} {x y w h : ℝ} (hid : MaskNamed attrs id) (hx : Measures vb attrs "x" .width x)
    (hy : Measures vb attrs "y" .height y) (hw : Measures vb attrs "width" .width w) (hh : Measures vb attrs "height" .height h) {c : Cursor ℝ}
    (hb : c.svg.viewBox = vb) : maskF attrs c = (.ok (), { c with inMask := true, mask := some ⟨id, x, y, w, h, [], Matrix2D.identity⟩ }) := by
  have h1 := measures_len hx
  have h2 := measures_len hy
  have h3 := measures_len hw
  have h4 := measures_len hh
  have tot : ∀ a ∈ attrs, ∀ b, ∃ b', maskAttr vb b a = .ok b' := by
    intro a ha b
    unfold maskAttr
    split
    · rename_i hn
      rw [if_neg]
      · exact ⟨_, rfl⟩
      · rcases hid with ⟨g, g'⟩ | ⟨-, g⟩
        · rw [distinct_unique hdi ha g hn]; exact g'
        · exact absurd (by rw [Given, ← hn]; exact ha) (g a.value)
    · split
      · rename_i h; rw [len_resolves hdi h1 ha h]; exact ⟨_, rfl⟩
      · split
        · rename_i h; rw [len_resolves hdi h2 ha h]; exact ⟨_, rfl⟩
        · split
          · rename_i h; rw [len_resolves hdi h3 ha h]; exact ⟨_, rfl⟩
          · split
            · rename_i h; rw [len_resolves hdi h4 ha h]; exact ⟨_, rfl⟩
            · exact ⟨_, rfl⟩
  obtain ⟨v, hv⟩ := loop_total attrs tot ⟨[], num 0, num 0, num 0, num 0⟩
  have f1 := len_of_loop h1 (loop_field (· = "x".toList) MaskVars.x (fun a => resolveUnit vb a.value .width) (step := maskAttr vb)
    (by shape_attr maskAttr) (by shape_attr maskAttr) attrs (distinct_pairwise hdi _) _ _ hv) hdi
  have f2 := len_of_loop h2 (loop_field (· = "y".toList) MaskVars.y (fun a => resolveUnit vb a.value .height) (step := maskAttr vb)
    (by shape_attr maskAttr) (by shape_attr maskAttr) attrs (distinct_pairwise hdi _) _ _ hv) hdi
  have f3 := len_of_loop h3 (loop_field (· = "width".toList) MaskVars.w (fun a => resolveUnit vb a.value .width) (step := maskAttr vb)
    (by shape_attr maskAttr) (by shape_attr maskAttr) attrs (distinct_pairwise hdi _) _ _ hv) hdi
  have f4 := len_of_loop h4 (loop_field (· = "height".toList) MaskVars.h (fun a => resolveUnit vb a.value .height) (step := maskAttr vb)
    (by shape_attr maskAttr) (by shape_attr maskAttr) attrs (distinct_pairwise hdi _) _ _ hv) hdi
  have f5 : v.id = id := by
    rcases maskLoop_name vb hv with ⟨as, bs, k1, -⟩ | ⟨k1, k2⟩
    · have hmem : (⟨"id".toList, v.id⟩ : Attr) ∈ attrs := by rw [k1]; simp
      rcases hid with ⟨g, -⟩ | ⟨-, g⟩
      · exact (Attr.mk.inj (distinct_unique hdi hmem g rfl)).2
      · exact absurd hmem (g v.id)
    · rcases hid with ⟨g, -⟩ | ⟨g, -⟩
      · exact absurd rfl (k2 _ g)
      · rw [k1, g]
  unfold maskF
  rw [SM.bind_run, SM.get_run]
  dsimp only
  rw [SM.bind_run, SM.lift_run, hb, hv]
  dsimp only
  rw [SM.modify_run, f1, f2, f3, f4, f5]

/-- A mask: its content is read like that of a group. -/
theorem stencil_read {fuel : Nat} {vb : Bounds ℝ} {E E' : Names} {attrs : List Attr} {id : Str} {x y w h : ℝ} {kids : Nodes} {is : List (Look × Figure)}
    {c c1 c2 : Cursor ℝ} {st st' : PathStyle ℝ} {rest : List (PathStyle ℝ)} {qs : List (SvgPath ℝ)} (k1 : pushStyle attrs c = (.ok (), c1))
    (k3 : Inside vb false E c1) (hdi : Distinct attrs) (hid : MaskNamed attrs id) (hx : Measures vb attrs "x" .width x)
    (hy : Measures vb attrs "y" .height y) (hw : Measures vb attrs "width" .width w) (hh : Measures vb attrs "height" .height h)
    (hm1 : ∀ as, Token.start "mask".toList as ∉ kids.tokens) (hm2 : Token.stop "mask".toList ∉ kids.tokens)
    (e1 : readTokens fuel kids.tokens c1 = (.ok (), c2)) (e2 : c2.styleStack = st' :: st :: rest)
    (e3 : Goes vb false E' c1 c2 qs (kids.texts false) (kids.texts true)) (e4 : List.Forall₂ (Portrays c2.svg.arrays) qs is) :
    ∃ c3, readTokens fuel (.start "mask".toList attrs :: (kids.tokens ++ [.stop "mask".toList])) c = (.ok (), c3) ∧ c3.styleStack = st :: rest ∧
      Goes vb false (E'.mask id ⟨x, y, w, h, is⟩) c1 c3 [] (kids.texts false) (kids.texts true) := by
  have hA := k3.around
  have hstart : readToken fuel (.start "mask".toList attrs) c =
      (.ok (), { c1 with inMask := true, mask := some ⟨id, x, y, w, h, [], Matrix2D.identity⟩ }) := by
    rw [readToken, SM.bind_run, k1]
    dsimp only
    unfold readStartElement
    dsimp only
    rw [if_neg (by rintro ⟨h, -⟩; rw [hA.inDefs] at h; cases h), show drawFuncs (F := ℝ) fuel (useF fuel) "mask".toList = some maskF from rfl]
    dsimp only
    rw [maskF_run hdi hid hx hy hw hh hA.viewBox]
    dsimp only
    have he : ∀ d : Cursor ℝ, d.pc.path = [] → emitPath d = (.ok (), d) := fun d hd => by unfold emitPath; rw [hd]
    rw [he { c1 with inMask := true, mask := some ⟨id, x, y, w, h, [], Matrix2D.identity⟩ } hA.path]
  have hbody : ∀ t ∈ kids.tokens, NotMaskTag t := by
    intro t ht
    cases t with
    | start name as => intro hn; subst hn; exact hm1 as ht
    | stop name => intro hn; subst hn; exact hm2 ht
    | chars _ => trivial
    | other => trivial
  have huse : DefsQ (fun d => d.tag ≠ "mask".toList) ({ c1 with inMask := true, mask := some ⟨id, x, y, w, h, [], Matrix2D.identity⟩ } : Cursor ℝ) :=
    ⟨fun id ds hds => k3.masks.free.1 id ds ((k3.table.done id).symm.trans hds), fun d hd => k3.masks.free.2 d (by rw [← k3.table.cur]; exact hd)⟩
  have hag : AsGroup ⟨id, x, y, w, h, [], Matrix2D.identity⟩ c1.svg.svgPaths c1.svg.svgMasks
      ({ c1 with inMask := true, mask := some ⟨id, x, y, w, h, [], Matrix2D.identity⟩ } : Cursor ℝ) c1 := by
    refine ⟨rfl, rfl, rfl, _, rfl, rfl, ?_⟩
    rw [List.append_nil, ← hA.inMask, ← k3.masks.now]
    rfl
  have hal := readTokens_alongside (fuel := fuel) hbody (.inr huse) hag
  rw [e1] at hal
  obtain ⟨r1, r2⟩ := hal
  rcases hq : readTokens fuel kids.tokens ({ c1 with inMask := true, mask := some ⟨id, x, y, w, h, [], Matrix2D.identity⟩ } : Cursor ℝ) with ⟨r, e⟩
  rw [hq] at r1 r2
  dsimp only at r1 r2
  subst r1
  obtain ⟨g1, g2, g3, mk, g4, gid, g5⟩ := r2 rfl
  subst g5
  have hst : e.styleStack = st' :: st :: rest := e2
  have hend := mask_end (fuel := fuel) g4
  rw [hst] at hend
  dsimp only at hend
  obtain ⟨i1, i2, i3, i4, i5, -, -⟩ := SvgMask.mk.inj gid
  dsimp only at i1 i2 i3 i4 i5
  have hpaths : mk.svgPaths = qs := List.append_cancel_left e3.paths
  have hin := e3.inside
  refine ⟨_, by rw [cons_ok hstart, cat_ok hq, hend], rfl, ?_⟩
  · refine ⟨⟨⟨hin.around.1, hin.around.2, hin.around.3, hin.around.4, hin.around.5, hin.around.6, rfl, hin.around.8, hin.around.9⟩, hin.inGrad, hin.knows,
      ⟨hin.table.done, hin.table.cur⟩, ⟨rfl, hin.masks.free, fun id' => ?_⟩⟩, ?_, e3.titles, e3.descs, e3.mem⟩
    · show match (if id' = id then some _ else E'.masks id') with
        | none => (e.svg.svgMasks.insert mk.id mk).find id' = none
        | some k => ∃ m : SvgMask ℝ, (e.svg.svgMasks.insert mk.id mk).find id' = some m ∧ _
      by_cases hi : id' = id
      · rw [if_pos hi]
        refine ⟨mk, by rw [hi, ← i1, find_insert_self], by rw [i1, hi], i2, i3, i4, i5, ?_⟩
        rw [hpaths]; exact e4
      · rw [if_neg hi, find_insert_ne _ (by rw [i1]; exact hi), g3]
        exact hin.masks.table id'
    · rw [List.append_nil]; exact g2

/-- A content is read. -/
theorem shows_read {fuel : Nat} (hf : 2 ≤ fuel) {vb : Bounds ℝ} {l : Look} {E E' : Names} {T : Nodes} {is : List (Look × Figure)}
    (h : Shows vb l E T E' is) : ∀ {c : Cursor ℝ} {st : PathStyle ℝ} {rest : List (PathStyle ℝ)}, Inside vb false E c → c.styleStack = st :: rest →
      Wears c.svg.arrays st l → ∃ c' qs, readTokens fuel T.tokens c = (.ok (), c') ∧ c'.styleStack = st :: rest ∧
        Goes vb false E' c c' qs (T.texts false) (T.texts true) ∧ List.Forall₂ (Portrays c'.svg.arrays) qs is := by
  induction h with
  | nil => intro c st rest hc hs hl; exact ⟨c, [], rfl, hs, Goes.refl hc, .nil⟩
  | @misc l E t next E' js ht h ih =>
    intro c st rest hc hs hl
    obtain ⟨c', qs, e1, e2, e3, e4⟩ := ih hc hs hl
    refine ⟨c', qs, ?_, e2, e3, e4⟩
    rw [Nodes.tokens, show t :: next.tokens = [t] ++ next.tokens from rfl, cat_ok (misc_around hc.around ht), e1]
  | @note l l' E desc attrs inner next E' js hd hi h ih =>
    intro c st rest hc hs hl
    obtain ⟨c1, k1, k2, k3⟩ := note_inside (fuel := fuel) hc hs hl hd hi desc
    obtain ⟨c', qs, e1, e2, e3, e4⟩ := ih k3.inside k2 (wears_mono k3.mem hl)
    refine ⟨c', qs, ?_, e2, ?_, e4⟩
    · rw [Nodes.tokens, node_split, cat_ok k1, e1]
    · have := k3.trans e3
      cases desc <;> simpa [Nodes.texts] using this
  | @group l l' E attrs kids E' next E'' is js hd hk hn ihk ihn =>
    intro c st rest hc hs hl
    obtain ⟨c1, st', k1, k2, k3, k4⟩ := group_start (fuel := fuel) hc hs hl hd
    obtain ⟨c2, qs, e1, e2, e3, e4⟩ := ihk k4.inside k2 k3
    obtain ⟨c3, j1, j2, j3⟩ := stop_group (fuel := fuel) e3.inside e2
    obtain ⟨c', qs', f1, f2, f3, f4⟩ := ihn j3.inside j2 (wears_mono (memR_trans k4.mem (memR_trans e3.mem j3.mem)) hl)
    refine ⟨c', qs ++ qs', ?_, f2, ?_, List.rel_append (portrays_all (memR_trans j3.mem f3.mem) e4) f4⟩
    · rw [Nodes.tokens, cons_ok k1, cat_ok e1, cons_ok j1, f1]
    · simpa [Nodes.texts] using k4.trans (e3.trans (j3.trans f3))
  | @shape l l' E name attrs inner fs next E' js hdi hd hfig hi hn ih =>
    intro c st rest hc hs hl
    obtain ⟨c1, st', qs, k1, k2, k3, k4⟩ := shape_start (by omega : 1 ≤ fuel) hc hs hl hdi hd hfig
    have hstop := stop_simple (fuel := fuel) k2 (name := name) (List.mem_cons_of_mem _ (List.mem_cons_of_mem _ (List.mem_cons_of_mem _ (figures_tag hfig))))
    obtain ⟨c', qs', f1, f2, f3, f4⟩ := ih (k3.inside.stack (st :: rest)) rfl (wears_mono k3.mem hl)
    refine ⟨c', qs ++ qs', ?_, f2, ?_, List.rel_append (portrays_all f3.mem k4) f4⟩
    · rw [Nodes.tokens, cons_ok k1, cat_ok (misc_around k3.inside.around hi), cons_ok hstop, f1]
    · have e3' : Goes vb false E c { c1 with styleStack := st :: rest } qs [] [] := ⟨k3.inside.stack _, k3.paths, k3.titles, k3.descs, k3.mem⟩
      simpa [Nodes.texts] using e3'.trans f3
  | @gradient l l' E radial attrs body stops g next E' js hd hS hg h ih =>
    intro c st rest hc hs hl
    obtain ⟨c1, k1, k2, k3⟩ := gradient_read (fuel := fuel) hc hs hl hd hS hg (stops_some hS)
    obtain ⟨c', qs, e1, e2, e3, e4⟩ := ih k3.inside k2 (wears_mono k3.mem hl)
    refine ⟨c', qs, ?_, e2, k3.trans e3, e4⟩
    rw [Nodes.tokens, node_split, cat_ok k1, e1]
  | @defs l l' E attrs kids E' next E'' js hd hk hn ih =>
    intro c st rest hc hs hl
    obtain ⟨c1, st', k1, k2, k3, k4⟩ := defs_start (fuel := fuel) hc hs hl hd
    obtain ⟨c2, e1, e2, e3⟩ := defines_read (fuel := fuel) hk k4.inside k2 k3
    obtain ⟨c3, j1, j2, j3⟩ := stop_definitions (fuel := fuel) e3.inside e2
    obtain ⟨c', qs, f1, f2, f3, f4⟩ := ih j3.inside j2 (wears_mono (memR_trans k4.mem (memR_trans e3.mem j3.mem)) hl)
    refine ⟨c', qs, ?_, f2, k4.trans (e3.trans (j3.trans f3)), f4⟩
    rw [Nodes.tokens, cons_ok k1, cat_ok e1, cons_ok j1, f1]
  | @use l l' E attrs id ds name as fs x y inner next E' js hdi hd hid hds hS hda hfig hx hy hfit hi hn ih =>
    intro c st rest hc hs hl
    obtain ⟨n, rfl⟩ : ∃ n, fuel = n + 1 := ⟨fuel - 1, by omega⟩
    obtain ⟨c1, st', qs, k1, k2, k3, k4⟩ := use_shows (n := n) (by omega) hc hs hl hdi hd hid hds hS hda hfig hx hy hfit
    have hstop := stop_simple (fuel := n + 1) k2 (name := "use".toList) (by decide)
    obtain ⟨c', qs', f1, f2, f3, f4⟩ := ih (k3.inside.stack (st :: rest)) rfl (wears_mono k3.mem hl)
    refine ⟨c', qs ++ qs', ?_, f2, ?_, List.rel_append (portrays_all f3.mem k4) f4⟩
    · rw [Nodes.tokens, cons_ok k1, cat_ok (misc_around k3.inside.around hi), cons_ok hstop, f1]
    · have e3' : Goes vb false E c { c1 with styleStack := st :: rest } qs [] [] := ⟨k3.inside.stack _, k3.paths, k3.titles, k3.descs, k3.mem⟩
      simpa [Nodes.texts] using e3'.trans f3
  | @mask l l' E attrs id x y w h kids E' is next E'' js hdi hd hid hx hy hw hh hm1 hm2 hk hn ihk ihn =>
    intro c st rest hc hs hl
    obtain ⟨c1, st', k1, k2, k3, k4⟩ := push_inside hc hs hl hd
    obtain ⟨c2, qs, e1, e2, e3, e4⟩ := ihk k4.inside k2 k3
    obtain ⟨c3, j1, j2, j3⟩ := stencil_read (fuel := fuel) k1 k4.inside hdi hid hx hy hw hh hm1 hm2 e1 e2 e3 e4
    have hmem : MemR c.svg.arrays c3.svg.arrays := memR_trans k4.mem j3.mem
    obtain ⟨c', qs', f1, f2, f3, f4⟩ := ihn j3.inside j2 (wears_mono hmem hl)
    refine ⟨c', qs', ?_, f2, ?_, f4⟩
    · rw [Nodes.tokens, node_split, cat_ok j1, f1]
    · simpa [Nodes.texts] using k4.trans (j3.trans f3)

/-! ### Documents -/

theorem sized_num {attrs : List Attr} {n : String} {x : ℝ} (h : Sized attrs n x) : NumAttr attrs n x := by
  cases h with
  | given h1 h2 h3 =>
    refine .inl ⟨_, h1, ?_⟩
    cases h2 with
    | unit n hn hu hw hw' hw'' => exact (C03_units_exact n hn hu hw hw' hw'' ⟨0, 0, 0, 0⟩ .width).1
    | percent n hn hw hw' hw'' => exact absurd (by simp) h3
  | absent h => exact .inr ⟨h, by simp⟩

theorem rootBox_read {fuel : Nat} {attrs : List Attr} (hd : Distinct attrs) {vb : Bounds ℝ} (h : RootBox attrs vb) {c : Cursor ℝ}
    (hdefs : c.inDefs = false) (hp : c.pc.path = []) : (readStartElement fuel "svg".toList attrs c).1 = .ok () ∧
      (readStartElement fuel "svg".toList attrs c).2.svg.svgPaths = c.svg.svgPaths ∧
      (readStartElement fuel "svg".toList attrs c).2.svg.viewBox = vb := by
  have e0 : (num 0 : ℝ) = 0 := by simp
  cases h with
  | @given v x y w h W H h1 h2 h3 h4 =>
    obtain ⟨g, rfl, g2, g3⟩ := h2
    have hw := writes_exact g g2
    rw [← g3] at hw
    obtain ⟨k1, k2, k3⟩ := C58_view_box (fuel := fuel) hd hdefs hp (vb := ⟨x, y, w, h⟩) (.inl ⟨_, h1, hw⟩) (sized_num h3) (sized_num h4)
    refine ⟨k1, k2, k3.trans ?_⟩
    simp [e0]
  | @absent W H h1 h2 h3 =>
    obtain ⟨k1, k2, k3⟩ := C58_view_box (fuel := fuel) hd hdefs hp (vb := ⟨0, 0, 0, 0⟩) (.inr ⟨h1, by simp⟩) (sized_num h2) (sized_num h3)
    refine ⟨k1, k2, k3.trans ?_⟩
    simp [e0]

omit [GoEnv] in
theorem sameLook_initial : SameLook (defaultStyle : PathStyle ℝ) Look.initial where
  fill := rfl
  stroke := rfl
  fillOpacity := by simp [defaultStyle, Look.initial]
  strokeOpacity := by simp [defaultStyle, Look.initial]
  width := by simp [defaultStyle, Look.initial]
  miter := by simp [defaultStyle, Look.initial]
  dash := rfl
  dashOffset := by simp [defaultStyle, Look.initial]
  nonzero := rfl
  cap := rfl
  leadCap := rfl
  join := rfl
  gap := rfl
  place := fun p => by simp [defaultStyle, Look.initial, affine, Matrix2D.identity]

theorem wears_initial : Wears (initCursor (F := ℝ) .strict).svg.arrays (defaultStyle : PathStyle ℝ) Look.initial :=
  ⟨sameLook_initial, ⟨[], ⟨(pathsOK_init (F := ℝ) .strict).1 defaultStyle List.mem_cons_self, [], .nil, rfl, rfl⟩, .nil⟩, Nat.zero_le _⟩

theorem masks_are {E : Names} {c : Cursor ℝ} (h : MasksAt E c) : MasksAre c.svg E.masks := by
  intro id
  have := h.table id
  split
  · rename_i hn; rw [hn] at this; exact this
  · rename_i k hn
    rw [hn] at this
    obtain ⟨m, a1, a2, a3, a4, a5, a6, a7⟩ := this
    exact ⟨m, a1, a2, a3, a4, a5, a6, a7.imp fun _ _ => portrays_depicts⟩

/-- The root element. -/
theorem root_read {fuel : Nat} {attrs : List Attr} (hd : Distinct attrs) {vb : Bounds ℝ} (hb : RootBox attrs vb) {l : Look}
    (hl : DeclaresAll true vb (fun _ => none) .initial (declared attrs) .initial l) :
    ∃ c st, readToken fuel (.start "svg".toList attrs) (initCursor (F := ℝ) .strict) = (.ok (), c) ∧ c.styleStack = [st, defaultStyle] ∧
      Wears c.svg.arrays st l ∧ Inside vb false {} c ∧ c.svg.svgPaths = [] ∧ c.svg.titles = [] ∧ c.svg.descriptions = [] := by
  have hs : (initCursor (F := ℝ) .strict).styleStack = defaultStyle :: [] := rfl
  obtain ⟨st', c', e, r, hmem⟩ := declares_loop hl (c := initCursor (F := ℝ) .strict) (.inl rfl) knows_none hs sameLook_initial wears_initial
  rw [← decls_eq_declared] at e
  have hp := pushed_style hs e
  have hf := pushStyle_flag attrs (initCursor (F := ℝ) .strict)
  have hsame := pushStyle_same hp
  have he := pushStyle_elem attrs (initCursor (F := ℝ) .strict)
  rw [hp] at hf he
  generalize hc1 : ({ c' with styleStack := st' :: (initCursor (F := ℝ) .strict).styleStack } : Cursor ℝ) = c1 at hp hf hsame he
  have hst : c1.styleStack = [st', defaultStyle] := by rw [← hc1]; rfl
  obtain ⟨k1, k2, k3⟩ := rootBox_read (fuel := fuel) hd hb (c := c1) hsame.inDefs hsame.path
  have hk := svgF_keeps attrs c1
  have hcase := readStartElement_cases fuel "svg".toList attrs c1
  rcases hx : readStartElement fuel "svg".toList attrs c1 with ⟨r', c2⟩
  rw [hx] at k1 k2 k3
  dsimp only at k1 k2 k3
  subst k1
  refine ⟨c2, st', by rw [readToken, SM.bind_run, hp]; exact hx, ?_⟩
  rcases hcase with ⟨k, -⟩ | ⟨-, ⟨k, -⟩ | ⟨df, hdf, ⟨hn, h'⟩ | ⟨htm, c3, hE, h'⟩ | ⟨htm, -, h'⟩⟩⟩
  · rw [hsame.inDefs] at k; cases k
  · cases k
  · rw [hx] at h'; rw [← h'] at hn; exact absurd trivial hn
  · rw [hx] at h'
    obtain ⟨e1, rfl⟩ := Prod.mk.inj h'
    cases hdf
    have e2 := hk.eq
    have hpath : (svgF attrs c1).2.pc.path = [] := by rw [e2]; exact hsame.path
    have : c2 = (svgF attrs c1).2 := by
      cases hE with
      | nothing => rfl
      | lost h => exact absurd hpath h
      | mask h => exact absurd hpath h
      | doc h => exact absurd hpath h
    have he2 : ElemR (initCursor (F := ℝ) .strict) c2 := by rw [this]; exact elemR_pre.trans he (drawFuncs_elem (fuel := fuel) (tag := "svg".toList) (df := svgF) rfl attrs c1)
    rw [← this] at e2
    have hr1 : Wears c1.svg.arrays st' l := by rw [← hc1]; exact r
    refine ⟨by rw [e2]; exact hst, by rw [e2]; exact hr1, ⟨⟨k3, by rw [e2]; exact hsame.mode, by rw [e2]; exact hsame.path, by rw [e2]; exact hsame.curX, by rw [e2]; exact hsame.curY,
      by rw [e2]; exact hsame.inDefs, by rw [e2]; exact hsame.inMask, by rw [e2]; exact hf.inTitle, by rw [e2]; exact hf.inDesc⟩, by rw [e2]; exact hf.inGrad, knows_none,
      tableAt_elem he2 ⟨fun _ => rfl, rfl⟩, ⟨by rw [e2]; exact hf.mask, ⟨fun _ _ h => (nomatch h), fun _ h => (nomatch h)⟩, fun id => by rw [he2.svgMasks]; rfl⟩⟩,
      by rw [k2]; exact hsame.paths, by rw [e2]; exact hf.titles, by rw [e2]; exact hf.descs⟩
  · rw [hx] at h'; cases h'

/-- C85: a document of groups, shapes, gradients, definitions, uses, masks, titles and descriptions is accepted, in every mode and without warnings, and the
drawing has the view box of the root, a path for every shape and every use outside masks in its look and place, in the order of the document, its masks
with what is in them, and the titles and descriptions. Partial: at most three masks on a shape (`C29_fourth_mask_false`), none in a mask
(`C45_nested_mask_false`) or in definitions; uses of definitions of one shape whose declarations change nothing (`Sole`), arcs only without an offset
(`C44_arc_false`); references to gradients only below them and not between gradients; the transforms that the code composes in the right order
(`Declares`); the shapes of `Figures`. -/
theorem C85_tree_partial {fuel : Nat} (hf : 2 ≤ fuel) {lead post : List Token} (h1 : NoTags lead) (h2 : NoTags post) {attrs : List Attr}
    (hd : Distinct attrs) {vb : Bounds ℝ} (hb : RootBox attrs vb) {l : Look} (hl : DeclaresAll true vb (fun _ => none) .initial (declared attrs) .initial l) {T : Nodes}
    {E : Names} {is : List (Look × Figure)} (h : Shows vb l {} T E is) :
    ∃ s : Svg ℝ, (∀ m, parse fuel m (lead ++ .start "svg".toList attrs :: (T.tokens ++ .stop "svg".toList :: post)) .eof = .done (some s) none []) ∧
      s.viewBox = vb ∧ List.Forall₂ (Depicts s.arrays) s.svgPaths is ∧ MasksAre s E.masks ∧ s.titles = T.texts false ∧ s.descriptions = T.texts true := by
  obtain ⟨c, st, r1, r2, r3, r4, r5, r6, r7⟩ := root_read (fuel := fuel) hd hb hl
  obtain ⟨c', qs, k1, k2, k3, k4⟩ := shows_read hf h r4 r2 r3
  have hstop := stop_simple (fuel := fuel) k2 (name := "svg".toList) (by decide)
  have hrun : readTokens fuel (lead ++ .start "svg".toList attrs :: (T.tokens ++ .stop "svg".toList :: post)) (initCursor (F := ℝ) .strict) =
      (.ok (), { c' with styleStack := [defaultStyle] }) := by
    rw [cat_ok (noTags_run fuel .strict lead h1), cons_ok r1, cat_ok k1, cons_ok hstop, misc_around (k3.inside.around.stack _) h2]
  have hany : (lead ++ Token.start "svg".toList attrs :: (T.tokens ++ .stop "svg".toList :: post)).any Token.isStart = true := by
    rw [List.any_append, List.any_cons]; simp [Token.isStart]
  have hp : parse (F := ℝ) fuel .strict (lead ++ .start "svg".toList attrs :: (T.tokens ++ .stop "svg".toList :: post)) .eof =
      .done (some c'.svg) none c'.pc.log := by
    unfold parse
    rw [hrun]
    dsimp only
    rw [if_pos hany]
  refine ⟨c'.svg, fun m => (C31_strict_success fuel m hp).2, k3.inside.around.viewBox, ?_, ?_, ?_, ?_⟩
  · rw [k3.paths, r5]; exact k4.imp fun _ _ => portrays_depicts
  · exact masks_are k3.inside.masks
  · rw [k3.titles, r6]; rfl
  · rw [k3.descs, r7]; rfl

/-- C85, drawn: the same document; every shape is drawn, by all three renderers, where its transforms and then the target put it.
Partial: as above, and targets for which the code composes in the right order (`InPlace`); not for rounded rectangles. -/
theorem C85_drawn_partial [RxEnv ℝ] {fuel : Nat} (hf : 2 ≤ fuel) {lead post : List Token} (h1 : NoTags lead) (h2 : NoTags post) {attrs : List Attr}
    (hd : Distinct attrs) {vb : Bounds ℝ} (hb : RootBox attrs vb) {l : Look} (hl : DeclaresAll true vb (fun _ => none) .initial (declared attrs) .initial l) {T : Nodes}
    {E : Names} {is : List (Look × Figure)} (h : Shows vb l {} T E is) :
    ∃ s : Svg ℝ, (∀ m, parse fuel m (lead ++ .start "svg".toList attrs :: (T.tokens ++ .stop "svg".toList :: post)) .eof = .done (some s) none []) ∧
      s.svgPaths.length = is.length ∧ ∀ k i, is[k]? = some i → i.2.rounded = false → ∃ G, i.2.outline G ∧ ∀ x y w ht, InPlace vb x y w ht i.1.place →
        (∀ o ∈ G, ∀ r ∈ o.points, InRange (fitted vb x y w ht ∘ i.1.place) r) →
        DrawnUnder s [.target x y w ht] k (fitted vb x y w ht ∘ i.1.place) G := by
  obtain ⟨s, p1, p2, p3, -⟩ := C85_tree_partial hf h1 h2 hd hb hl h
  refine ⟨s, p1, p3.length_eq, fun k i hi hr => ?_⟩
  obtain ⟨hk, rfl⟩ := List.getElem?_eq_some_iff.1 hi
  have hk' : k < s.svgPaths.length := by rw [p3.length_eq]; exact hk
  obtain ⟨r1, G, r2, r3⟩ := p3.get hk' hk
  simp only [List.get_eq_getElem] at r1 r2 r3
  rw [hr, if_neg (by decide)] at r3
  refine ⟨G, r2, fun x y w ht hin hG => ?_⟩
  subst p2
  exact drawnUnder_of (List.getElem?_eq_getElem hk') r3 r1.place hin hG

end GoSvg

namespace GoSvg

open Spec

section Examples

attribute [local instance] asciiEnv
attribute [local instance] dummyLibm

/-- A whole number. -/
def whole (s : String) : Spelling := ⟨false, s.toList, none, none⟩

theorem length_whole {vb : Bounds ℝ} {ref : PercRef} {s : String} {x : ℝ} (h : (whole s).WF) (hx : ((whole s).value : ℝ) = x) :
    LengthText vb ref s.toList x := by
  have := LengthText.unit (vb := vb) (ref := ref) (whole s) h (u := []) (f := 1) (by decide) (w := []) (w' := []) (w'' := []) (fun _ h => nomatch h)
    (fun _ h => nomatch h) (fun _ h => nomatch h)
  have ht : (whole s).text = s.toList := by simp [whole, Spelling.text, Spelling.body]
  rw [hx, ht] at this
  simpa using this

theorem measures_whole {vb : Bounds ℝ} {attrs : List Attr} {n : String} {ref : PercRef} {s : String} {x : ℝ} (hg : Given attrs n s.toList) (h : (whole s).WF)
    (hx : ((whole s).value : ℝ) = x) : Measures vb attrs n ref x := .given hg (length_whole h hx)

theorem measures_none {vb : Bounds ℝ} {attrs : List Attr} {n : String} {ref : PercRef} (h : ∀ a ∈ attrs, a.name ≠ n.toList) : Measures vb attrs n ref 0 :=
  .absent (not_given h)

/-- The view box of the example. -/
def treeBox : Bounds ℝ := ⟨0, 0, 100, 50⟩

/-- Its root element. -/
def treeRoot : List Attr := attrsOf [("viewBox", "0 0 100 50"), ("stroke", "blue")]

def treeG : List Attr := attrsOf [("transform", "scale(2)"), ("style", "fill: none; opacity:0.5")]
def treeCircle : List Attr := attrsOf [("cx", "10"), ("r", "5"), ("cy", "10%")]
def treePath : List Attr := attrsOf [("d", "M1 0a1 1 0 0 1-2 0l2 1z"), ("fill", "red")]
def treeRect : List Attr := attrsOf [("width", "30"), ("x", "1"), ("height", "20"), ("rx", "2"), ("ry", "2"), ("stroke-width", "3"), ("fill", "url(#a)")]
def treeEmpty : List Attr := attrsOf [("height", "5")]

def treeGrad : List Attr := attrsOf [("id", "a"), ("x2", "50%"), ("gradientTransform", "scale(2)"), ("spreadMethod", "reflect")]
def treeStop1 : List Attr := attrsOf [("offset", "25%"), ("stop-color", "red")]
def treeStop2 : List Attr := attrsOf [("style", "stop-color: blue; stop-opacity:0.5"), ("offset", "1")]

def treeNamed : List Attr := attrsOf [("id", "b")]
def treeUse : List Attr := attrsOf [("href", "#b"), ("x", "3"), ("fill", "red"), ("mask", "url(#m)")]
def treeMask : List Attr := attrsOf [("width", "10"), ("id", "m")]

/-- A title, definitions with a gradient and a circle in a group, a group with a circle and a path, a rounded rectangle, a rectangle without a width,
a mask with a circle, and a `use` of the group under the mask. -/
def treeDoc : Nodes :=
  .misc (.chars " ".toList) (.note false [] [.chars "A".toList, .other, .chars "B".toList]
    (.defs [] (.gradient false treeGrad [.misc .other, .stop treeStop1 [], .stop treeStop2 []]
        (.group treeNamed (.shape "circle".toList treeCircle [] .nil) .nil))
      (.group treeG (.shape "circle".toList treeCircle [] (.shape "path".toList treePath [.other] .nil))
        (.shape "rect".toList treeRect [] (.shape "rect".toList treeEmpty [] (.mask treeMask (.shape "circle".toList treeCircle [] .nil) (.use treeUse [.other] .nil)))))))

/-- Its gradient. -/
noncomputable def treeGradient : Gradient ℝ :=
  ⟨some (.linear 0 0 (1 / 2) 0), [⟨some ⟨255, 0, 0, 255⟩, 1 / 4, 1⟩, ⟨some ⟨0, 0, 255, 255⟩, 1, 1 / 2⟩], treeBox, ⟨2, 0, 0, 2, 0, 0⟩, .reflect,
    .objectBoundingBox⟩

/-- Its names. -/
noncomputable def treeOpen : Names :=
  (((({} : Names).define treeGrad treeGradient).record "g".toList treeNamed).record "circle".toList treeCircle).endGroup

noncomputable def treeNames : Names := treeOpen.close

/-- Its names with the mask. -/
noncomputable def treeAll (k : Stencil) : Names := treeNames.mask "m".toList k

/-- Its gradients. -/
noncomputable def treePalette : Palette := treeNames.grads

def blueLook : Look := { Look.initial with stroke := some (.plain ⟨0, 0, 255, 255⟩) }

noncomputable def groupLook : Look :=
  { blueLook with fill := none, fillOpacity := 1 * (1 / 2), strokeOpacity := 1 * (1 / 2), place := applyList [.scale 2 2] }

theorem tree_root : DeclaresAll true treeBox (fun _ => none) .initial (declared treeRoot) .initial blueLook := by
  have e : declared treeRoot = [("viewbox".toList, "0 0 100 50".toList), ("stroke".toList, "blue".toList)] := by decide +kernel
  rw [e]
  exact .cons (.other (by decide)) (.cons (.stroke (.name (n := "blue".toList) (by decide) (by decide +kernel))) .nil)

theorem half_text : NumberText "0.5".toList (1 / 2) := by
  have := NumberText.mk ⟨false, "0".toList, some "5".toList, none⟩ (by decide +kernel) (w := []) (w' := []) (fun _ h => nomatch h) (fun _ h => nomatch h)
  have e : ((⟨false, "0".toList, some "5".toList, none⟩ : Spelling).value : ℝ) = 1 / 2 := by
    simp [Spelling.value, Spelling.absValue, natVal]; norm_num
  rw [e] at this
  exact this

theorem one_text : NumberText "1".toList 1 := by
  have := NumberText.mk ⟨false, "1".toList, none, none⟩ (by decide +kernel) (w := []) (w' := []) (fun _ h => nomatch h) (fun _ h => nomatch h)
  have e : ((⟨false, "1".toList, none, none⟩ : Spelling).value : ℝ) = 1 := by simp [Spelling.value, Spelling.absValue, natVal]
  rw [e] at this
  exact this

theorem quarter_text : FractionText "25%".toList (1 / 4) := by
  have := FractionText.percent ⟨false, "25".toList, none, none⟩ (by decide +kernel) (w := []) (w' := []) (w'' := []) (fun _ h => nomatch h)
    (fun _ h => nomatch h) (fun _ h => nomatch h)
  have e : ((⟨false, "25".toList, none, none⟩ : Spelling).value : ℝ) / 100 = 1 / 4 := by simp [Spelling.value, Spelling.absValue, natVal]; norm_num
  rw [e] at this
  exact this

theorem tree_stops {l : Look} : Stops treeBox l [.misc .other, .stop treeStop1 [], .stop treeStop2 []] treeGradient.stops := by
  have d1 : declared treeStop1 = [("offset".toList, "25%".toList), ("stop-color".toList, "red".toList)] := by decide +kernel
  have d2 : declared treeStop2 = [("stop-color".toList, "blue".toList), ("stop-opacity".toList, "0.5".toList), ("offset".toList, "1".toList)] := by decide +kernel
  have e1 : valuesNamed "offset" treeStop1 = ["25%".toList] := by decide +kernel
  have e2 : stopValues "stop-opacity" treeStop1 = [] := by decide +kernel
  have e3 : stopValues "stop-color" treeStop1 = ["red".toList] := by decide +kernel
  have f1 : valuesNamed "offset" treeStop2 = ["1".toList] := by decide +kernel
  have f2 : stopValues "stop-opacity" treeStop2 = ["0.5".toList] := by decide +kernel
  have f3 : stopValues "stop-color" treeStop2 = ["blue".toList] := by decide +kernel
  refine .misc (by decide) (.stop (l' := l) ?_ (by decide) ⟨?_, ?_, ?_, by decide⟩ (.stop (l' := l) ?_ (by decide) ⟨?_, ?_, ?_, by decide⟩ .nil))
  · rw [d1]; exact .cons (.other (by decide)) (.cons (.other (by decide)) .nil)
  · rw [e1]; exact .given (vs := []) (fun _ h => nomatch h) quarter_text
  · rw [e2]; exact .absent
  · rw [e3]; exact .given (vs := []) (fun _ h => nomatch h) (.name (n := "red".toList) (by decide) (by decide +kernel))
  · rw [d2]; exact .cons (.other (by decide)) (.cons (.other (by decide)) (.cons (.other (by decide)) .nil))
  · rw [f1]; exact .given (vs := []) (fun _ h => nomatch h) (.number one_text)
  · rw [f2]; exact .given (vs := []) (fun _ h => nomatch h) half_text
  · rw [f3]; exact .given (vs := []) (fun _ h => nomatch h) (.name (n := "blue".toList) (by decide) (by decide +kernel))

theorem tree_gradient : IsGradient treeBox blueLook false treeGrad treeGradient.stops treeGradient := by
  have e1 : valuesNamed "x1" treeGrad = [] := by decide
  have e2 : valuesNamed "y1" treeGrad = [] := by decide
  have e3 : valuesNamed "x2" treeGrad = ["50%".toList] := by decide
  have e4 : valuesNamed "y2" treeGrad = [] := by decide
  have eu : unitsOf treeGrad = .objectBoundingBox := by decide +kernel
  refine ⟨⟨_, rfl, ?_⟩, rfl, rfl, .given (ts := [fnText "scale" "2" [2]]) (last := []) (fs := [.scale 2 2]) ?_ (fun _ h => nomatch h) rfl ?_
    (.cons (.scaleBoth (by decide)) .nil) ⟨by simp, ?_⟩ ?_, by decide +kernel, eu.symm, by decide⟩
  · rw [eu]
    refine .linear (by rw [e1]; exact .absent) (by rw [e2]; exact .absent) ?_ (by rw [e4]; exact .absent)
    rw [e3]
    refine .given (vs := []) (fun _ h => nomatch h) ?_
    have := LengthText.percent (vb := percentBox .objectBoundingBox treeBox) (ref := .width) ⟨false, "50".toList, none, none⟩ (by decide +kernel)
      (w := []) (w' := []) (w'' := []) (fun _ h => nomatch h) (fun _ h => nomatch h) (fun _ h => nomatch h)
    have e : ((⟨false, "50".toList, none, none⟩ : Spelling).value : ℝ) / 100 * refLength (percentBox .objectBoundingBox treeBox) .width = 1 / 2 := by
      simp [Spelling.value, Spelling.absValue, natVal, refLength, percentBox]; norm_num
    rw [e] at this
    exact this
  · have : listText [fnText "scale" "2" [2]] [] = "scale(2)".toList := by simp [listText, FnText.text, fnText]
    rw [this]; decide
  · intro t ht
    cases List.mem_singleton.1 ht
    exact ex_scale_small
  · intro t ht
    cases ht
    exact .inl (.inr (by decide))
  · intro p
    simp [treeGradient, affine, applyList, Fn.apply, mul_comm]

theorem tree_declared_circle {E : Palette} {l : Look} : DeclaresAll false treeBox E l (declared treeCircle) l l := by
  have d1 : declared treeCircle = [("cx".toList, "10".toList), ("r".toList, "5".toList), ("cy".toList, "10%".toList)] := by decide +kernel
  rw [d1]; exact .cons (.other (by decide)) (.cons (.other (by decide)) (.cons (.other (by decide)) .nil))

theorem tree_declared_named {E : Palette} {l : Look} : DeclaresAll false treeBox E l (declared treeNamed) l l := by
  have d1 : declared treeNamed = [("id".toList, "b".toList)] := by decide +kernel
  rw [d1]; exact .cons (.other (by decide)) .nil

theorem tree_defs : Defines treeBox blueLook {}
    (.gradient false treeGrad [.misc .other, .stop treeStop1 [], .stop treeStop2 []] (.group treeNamed (.shape "circle".toList treeCircle [] .nil) .nil)) treeOpen := by
  have d1 : declared treeGrad = [("id".toList, "a".toList), ("x2".toList, "50%".toList), ("gradienttransform".toList, "scale(2)".toList),
    ("spreadmethod".toList, "reflect".toList)] := by decide +kernel
  refine .gradient (l' := blueLook) ?_ tree_stops tree_gradient (.group tree_declared_named (.shape (by decide) tree_declared_circle (by decide) .nil) .nil)
  rw [d1]; exact .cons (.other (by decide)) (.cons (.other (by decide)) (.cons (.other (by decide)) (.cons (.other (by decide)) .nil)))

theorem tree_group {E : Palette} : DeclaresAll false treeBox E blueLook (declared treeG) blueLook groupLook := by
  have e : declared treeG = [("transform".toList, listText [fnText "scale" "2" [2]] []), ("fill".toList, "none".toList), ("opacity".toList, "0.5".toList)] := by
    have : listText [fnText "scale" "2" [2]] [] = "scale(2)".toList := by simp [listText, FnText.text, fnText]
    rw [this]
    decide +kernel
  rw [e]
  refine .cons (.transforms (fs := [.scale 2 2]) rfl ?_ (.cons (.scaleBoth (by decide)) .nil) ⟨by simp, ?_⟩)
    (.cons (.fill (.none (by decide))) (.cons (.opacity (x := 1 / 2) ?_) .nil))
  · intro t ht
    cases List.mem_singleton.1 ht
    exact ex_scale_small
  · intro t ht
    cases ht
    exact .inl (.inr (by decide))
  · exact half_text

theorem whole_wf : ∀ s ∈ ["10", "5", "30", "20", "2", "1", "3"], (whole s).WF := by decide +kernel

theorem whole_value : ((whole "10").value : ℝ) = 10 ∧ ((whole "5").value : ℝ) = 5 ∧ ((whole "30").value : ℝ) = 30 ∧ ((whole "20").value : ℝ) = 20 ∧
    ((whole "2").value : ℝ) = 2 ∧ ((whole "1").value : ℝ) = 1 ∧ ((whole "3").value : ℝ) = 3 := by
  simp [whole, Spelling.value, Spelling.absValue, natVal]

/-- The circle: `cy` is a tenth of 50. -/
def treeFigure : Figure where
  outline G := ∃ cs, Follows ⟨10, 5, 5, 5, 0⟩ 0 (-(2 * Real.pi)) 17 cs ∧ G = .moveTo (10 + 5, 5) :: cs.map (fun b => .cubicTo b.p1 b.p2 b.p3) ++ [.close]

theorem tree_circle : Figures treeBox "circle".toList treeCircle [treeFigure] := by
  have hy : Measures treeBox treeCircle "cy" .height 5 := by
    have := LengthText.percent (vb := treeBox) (ref := .height) (whole "10") (whole_wf _ (by decide)) (w := []) (w' := []) (w'' := []) (fun _ h => nomatch h)
      (fun _ h => nomatch h) (fun _ h => nomatch h)
    rw [whole_value.1] at this
    have e : (10 : ℝ) / 100 * refLength treeBox .height = 5 := by simp [refLength, treeBox]; norm_num
    rw [e] at this
    exact .given (v := "10%".toList) (by decide) this
  exact .ellipse (.inl rfl) (measures_whole (s := "10") (by decide) (whole_wf _ (by decide)) whole_value.1) hy
    (.one (measures_whole (s := "5") (by decide) (whole_wf _ (by decide)) whole_value.2.1) (not_given (by decide)) (not_given (by decide)))
    (by norm_num) (by norm_num)

theorem tree_round : Figures treeBox "rect".toList treeRect [{ outline := RoundedRect 1 0 30 20 2, rounded := true, fits := fun a b => |1 + a| ≤ 2 ^ 20 ∧ |0 + b| ≤ 2 ^ 20 }] := by
  obtain ⟨-, -, v1, v2, v3, v4, -⟩ := whole_value
  refine .round (rx := 2) (ry := 2) ⟨measures_whole (s := "1") (by decide) (whole_wf _ (by decide)) v4, measures_none (by decide),
    measures_whole (s := "30") (by decide) (whole_wf _ (by decide)) v1, measures_whole (s := "20") (by decide) (whole_wf _ (by decide)) v2,
    measures_whole (s := "2") (by decide) (whole_wf _ (by decide)) v3, measures_whole (s := "2") (by decide) (whole_wf _ (by decide)) v3⟩
    ?_ ?_ ?_ ?_ ?_ ?_ ?_ ?_ ?_ ?_ ?_ ?_ <;> norm_num

/-- What the example shows. -/
theorem tree_shows : Shows treeBox blueLook {} treeDoc (treeAll ⟨0, 0, 10, 0, [(blueLook, treeFigure)]⟩)
    [(groupLook, treeFigure),
      ({ groupLook with fill := some (.plain ⟨255, 0, 0, 255⟩) }, { outline := StandFor ⟨(0, 0), (0, 0), .none⟩ halfCmds, fits := fun a b => (a = 0 ∧ b = 0) ∨ ∀ k ∈ halfCmds, k.IsPlain }),
      ({ blueLook with width := 3, fill := some (.gradient treeGradient) }, { outline := RoundedRect 1 0 30 20 2, rounded := true, fits := fun a b => |1 + a| ≤ 2 ^ 20 ∧ |0 + b| ≤ 2 ^ 20 }),
      ({ blueLook with fill := some (.plain ⟨255, 0, 0, 255⟩), masks := ["m".toList] }, treeFigure.moved 3 0)] := by
  have d2 : declared treePath = [("d".toList, "M1 0a1 1 0 0 1-2 0l2 1z".toList), ("fill".toList, "red".toList)] := by decide +kernel
  have d3 : declared treeRect = [("width".toList, "30".toList), ("x".toList, "1".toList), ("height".toList, "20".toList), ("rx".toList, "2".toList),
    ("ry".toList, "2".toList), ("stroke-width".toList, "3".toList), ("fill".toList, "url(#a)".toList)] := by decide +kernel
  have d4 : declared treeEmpty = [("height".toList, "5".toList)] := by decide +kernel
  have d5 : declared treeUse = [("href".toList, "#b".toList), ("x".toList, "3".toList), ("fill".toList, "red".toList),
    ("mask".toList, "url(#".toList ++ "m".toList ++ ")".toList)] := by decide +kernel
  have d6 : declared treeMask = [("width".toList, "10".toList), ("id".toList, "m".toList)] := by decide +kernel
  refine .misc (by decide) (.note (l' := blueLook) .nil (by decide) (.defs (l' := blueLook) .nil tree_defs
    (.group (is := [_, _]) tree_group (.shape (by decide) tree_declared_circle tree_circle (by decide)
    (.shape (by decide) ?_ (.path (pre := []) (cmds := halfCmds) (ts := halfTexts) (by simp) half_written ⟨rfl, rfl, rfl, trivial⟩ half_proper
      (by simp [halfCmds]) (by decide +kernel)) (by decide) .nil))
    (.shape (by decide) ?_ tree_round (by decide) (.shape (fs := []) (l' := blueLook) (by decide) ?_
      (.noRect (x := 0) (y := 0) (w := 0) (h := 5) (rx := 0) (ry := 0) ⟨measures_none (by decide), measures_none (by decide), measures_none (by decide),
        measures_whole (s := "5") (by decide) (whole_wf _ (by decide)) whole_value.2.1, measures_none (by decide), measures_none (by decide)⟩ (.inl rfl))
      (by decide) (.mask (l' := blueLook) (id := "m".toList) (is := [(blueLook, treeFigure)]) (by decide) ?_ (.inl ⟨by decide, by decide⟩)
      (measures_none (by decide)) (measures_none (by decide)) (measures_whole (s := "10") (by decide) (whole_wf _ (by decide)) whole_value.1)
      (measures_none (by decide)) ?_ (by decide) (.shape (by decide) tree_declared_circle tree_circle (by decide) .nil) (.use (id := "b".toList) (name := "circle".toList) (as := treeCircle) (fs := [treeFigure]) (by decide) ?_ (by decide)
        (show (treeAll _).defs.done.lookup "b".toList = some ([⟨"b".toList, "g".toList, treeNamed⟩, ⟨[], "circle".toList, treeCircle⟩] ++ [endOfGroup]) by
          decide +kernel)
        (.group (ds := [_]) tree_declared_named (.shape tree_declared_circle)) (by decide) tree_circle
        (measures_whole (s := "3") (by decide) (whole_wf _ (by decide)) whole_value.2.2.2.2.2.2) (measures_none (by decide))
        (by intro f hf; cases List.mem_singleton.1 hf; trivial) (by decide) .nil)))))))
  · rw [d2]; exact .cons (.other (by decide)) (.cons (.fill (.name (n := "red".toList) (by decide) (by decide +kernel))) .nil)
  · rw [d3]
    exact .cons (.other (by decide)) (.cons (.other (by decide)) (.cons (.other (by decide)) (.cons (.other (by decide)) (.cons (.other (by decide))
      (.cons (.width (length_whole (s := "3") (whole_wf _ (by decide)) whole_value.2.2.2.2.2.2) (by decide))
        (.cons (.fillUrl (id := "a".toList) ⟨[], [], fun _ h => (nomatch h), fun _ h => (nomatch h), by decide, by decide⟩
          (show treePalette _ = some treeGradient from if_pos (c := "a".toList ∈ valuesNamed "id" treeGrad) (e := none) (by decide))) .nil))))))
  · rw [d4]; exact .cons (.other (by decide)) .nil
  · rw [d6]; exact .cons (.other (by decide)) (.cons (.other (by decide)) .nil)
  · intro as has
    rcases List.mem_cons.1 has with h | has
    · injection h with h; exact absurd h (by decide)
    · rcases List.mem_cons.1 has with h | has
      · cases h
      · cases has
  · rw [d5]
    exact .cons (.other (by decide)) (.cons (.other (by decide)) (.cons (.fill (.name (n := "red".toList) (by decide) (by decide +kernel)))
      (.cons (.mask (id := "m".toList) (by decide) (by decide)) .nil)))

theorem tree_box : RootBox treeRoot treeBox := by
  have := RootBox.given (attrs := treeRoot) (v := "0 0 100 50".toList) (x := 0) (y := 0) (w := 100) (h := 50) (W := 0) (H := 0) (by decide +kernel)
    ⟨⟨[int "" "0", int " " "0", int " " "100", int " " "50"], []⟩, by decide +kernel, by decide +kernel,
      by simp [GroupList.numbers, Group.numbers, int, Spelling.value, Spelling.absValue, natVal]⟩ (.absent (not_given (by decide)))
    (.absent (not_given (by decide)))
  simpa [treeBox] using this

/-- C85 for the example. -/
example : ∃ s : Svg ℝ, (∀ m, parse 2 m ([.other] ++ .start "svg".toList treeRoot :: (treeDoc.tokens ++ [.stop "svg".toList])) .eof = .done (some s) none []) ∧
    s.viewBox = ⟨0, 0, 100, 50⟩ ∧ s.svgPaths.length = 4 ∧ s.titles = ["AB".toList] ∧
    ∃ q, s.svgPaths[1]? = some q ∧ q.style.fillerColor = some (.plain ⟨255, 0, 0, 255⟩) ∧ q.style.linerColor = some (.plain ⟨0, 0, 255, 255⟩) ∧
      q.style.fillOpacity = 1 / 2 ∧ (∀ p, affine q.style.transform p = (2 * p.1, 2 * p.2)) ∧
      ∃ q', s.svgPaths[2]? = some q' ∧ q'.style.fillerColor = some (.gradient treeGradient) ∧
      ∃ q3, s.svgPaths[3]? = some q3 ∧ q3.style.fillerColor = some (.plain ⟨255, 0, 0, 255⟩) ∧ q3.path.head? = some (.moveTo ⟨toFix (18 : ℝ), toFix (5 : ℝ)⟩) ∧
      q3.style.masks.read s.arrays = ["m".toList] ∧ ∃ m, s.svgMasks.find "m".toList = some m ∧ m.w = 10 ∧ m.svgPaths.length = 1 := by
  obtain ⟨s, h1, h2, h3, hm, h4, -⟩ := C85_tree_partial (fuel := 2) (le_refl _) (lead := [.other]) (post := []) (by decide) (by decide) (by decide) tree_box tree_root
    tree_shows
  refine ⟨s, h1, h2, h3.length_eq, h4, ?_⟩
  obtain ⟨q, e1, r1⟩ : ∃ q, s.svgPaths[1]? = some q ∧ Depicts s.arrays q _ := ⟨_, List.getElem?_eq_getElem (by rw [h3.length_eq]; decide), h3.get _ (by decide)⟩
  obtain ⟨q', e2, r2⟩ : ∃ q, s.svgPaths[2]? = some q ∧ Depicts s.arrays q _ := ⟨_, List.getElem?_eq_getElem (by rw [h3.length_eq]; decide), h3.get _ (by decide)⟩
  obtain ⟨q3, e3, r3⟩ : ∃ q, s.svgPaths[3]? = some q ∧ Depicts s.arrays q _ := ⟨_, List.getElem?_eq_getElem (by rw [h3.length_eq]; decide), h3.get _ (by decide)⟩
  have hpath : q3.path.head? = some (.moveTo ⟨toFix (18 : ℝ), toFix (5 : ℝ)⟩) := by
    obtain ⟨G, ⟨G0, ⟨cs, -, rfl⟩, rfl⟩, h⟩ := r3.outline
    have h : q3.path = _ := h
    rw [h, List.map_append, List.map_append, List.map_cons, List.map_cons, List.cons_append, List.head?_cons]
    simp only [GOp.moved, GOp.store, real_add]
    norm_num
  have := r1.look
  refine ⟨q, e1, this.fill, this.stroke, this.fillOpacity.trans (by simp [groupLook]), fun p => (this.place p).trans ?_, q', e2, r2.look.fill, q3, e3, r3.look.fill, hpath,
    r3.look.masks, ?_⟩
  · show applyList [.scale 2 2] p = _
    simp [applyList, Fn.apply, mul_comm]
  · obtain ⟨m, a1, -, -, -, a2, -, a3⟩ := hm "m".toList
    exact ⟨m, a1, a2, a3.length_eq⟩

end Examples

end GoSvg
