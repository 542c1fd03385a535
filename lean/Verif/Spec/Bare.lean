import Verif.Model.Parse

/-! Specification: which attributes of an element mean anything, and documents that differ in the others, in comments and in
text only. -/

namespace GoSvg.Spec

/-- The presentation attributes. Their names are read in any case of letters. -/
def presentation : List String :=
  ["fill", "fill-rule", "fill-opacity", "stroke", "stroke-width", "stroke-opacity", "stroke-linecap", "stroke-leadlinecap", "stroke-linejoin",
   "stroke-linegap", "stroke-miterlimit", "stroke-dasharray", "stroke-dashoffset", "opacity", "transform", "mask"]

/-- The attributes that gradients of both kinds have. -/
def gradientNames : List String := ["gradientTransform", "gradientUnits", "spreadMethod"]

/-- Which elements have attributes of their own, and which. -/
def ownTable : List (String × List String) :=
  [("svg", ["viewBox", "width", "height"]), ("rect", ["x", "y", "width", "height", "rx", "ry"]), ("circle", ["cx", "cy", "r", "rx", "ry"]),
   ("ellipse", ["cx", "cy", "r", "rx", "ry"]), ("line", ["x1", "y1", "x2", "y2"]), ("polyline", ["points"]), ("polygon", ["points"]),
   ("path", ["d"]), ("mask", ["x", "y", "width", "height"]), ("use", ["href", "x", "y"]),
   ("linearGradient", ["x1", "y1", "x2", "y2"] ++ gradientNames), ("radialGradient", ["cx", "cy", "fx", "fy", "r", "fr"] ++ gradientNames),
   ("stop", ["offset", "stop-color", "stop-opacity"])]

/-- The attributes of an element that are its own: none for an element that is not in the table. -/
def ownNames (tag : Str) : List String := ((ownTable.find? fun e => e.1.toList = tag).map (·.2)).getD []

variable [GoEnv]

/-- An attribute that has to do with the style: `style`, or a presentation attribute, written in any case of letters. (What
follows a second colon in a name is dropped, as in `declared`.) -/
def Styling (a : Attr) : Bool :=
  toLower a.name = "style".toList || presentation.any (fun n => n.toList = trimSpace (toLower (a.name.takeWhile (· ≠ ':'))))

/-- An attribute that means something in an element: its `id`, an attribute of its own, or one that has to do with the style. -/
def Known (tag : Str) (a : Attr) : Bool :=
  a.name = "id".toList || a.name = "style".toList || Styling a || (ownNames tag).any (fun n => n.toList = a.name)

/-- The attributes of an element that mean something. -/
def bareAttrs (tag : Str) (attrs : List Attr) : List Attr := attrs.filter (Known tag)

/-- A document without comments and without the attributes that mean nothing. -/
def bareDoc : List Token → List Token
  | [] => []
  | .start name attrs :: ts => .start name (bareAttrs name attrs) :: bareDoc ts
  | .other :: ts => bareDoc ts
  | t :: ts => t :: bareDoc ts

/-- The same without text. -/
def bareTags (ts : List Token) : List Token :=
  (bareDoc ts).filter fun t => match t with
    | .chars _ => false
    | _ => true

end GoSvg.Spec

namespace GoSvg

variable {F : Type}

/-- The drawing as a caller sees it: without the table of definitions, which is not exported. -/
def Svg.seen (s : Svg F) : Svg F := { s with defs := [] }

/-- The drawing without the texts of titles and descriptions: their numbers only. -/
def Svg.textless (s : Svg F) : Svg F := { s with titles := s.titles.map fun _ => [], descriptions := s.descriptions.map fun _ => [] }

/-- The same outcome for another drawing. -/
def Outcome.mapSvg (f : Svg F → Svg F) : Outcome F → Outcome F
  | .done s e log => .done (s.map f) e log
  | .panic s => .panic s
  | .diverge => .diverge

end GoSvg
