import Verif.Spec.Attrs

/-! Specification: the text of a `style` attribute, and the keyword properties. -/

namespace GoSvg.Spec

/-- A piece of a `style` attribute: a declaration `key: value` with white space around the key, or a piece without a colon. -/
inductive StyleItem where
  | decl (w key w' value : Str)
  | junk (s : Str)

def StyleItem.text : StyleItem → Str
  | .decl w key w' value => w ++ key ++ w' ++ ':' :: value
  | .junk s => s

/-- ASCII white space around a key without colons and semicolons (a property name, not `style` itself). -/
def StyleItem.WF : StyleItem → Prop
  | .decl w key w' value => (∀ c ∈ w, isSpace c = true ∧ c.toNat < 128) ∧ (∀ c ∈ w', isSpace c = true ∧ c.toNat < 128) ∧
      (∀ c ∈ key, c.toNat < 128 ∧ isSpace c = false ∧ c ≠ ':' ∧ c ≠ ';') ∧ key.map Char.toLower ≠ "style".toList ∧ ';' ∉ value
  | .junk s => ':' ∉ s ∧ ';' ∉ s

/-- The attribute that says the same: the key in lower case, without the white space. -/
def StyleItem.attr : StyleItem → Option Attr
  | .decl _ key _ value => some ⟨key.map Char.toLower, value⟩
  | .junk _ => none

/-- The text of the pieces, separated by semicolons. -/
def styleText (items : List StyleItem) : Str := [';'].intercalate (items.map StyleItem.text)

def fillRules : List (String × Bool) := [("evenodd", false), ("nonzero", true)]

def caps : List (String × CapMode) :=
  [("butt", .butt), ("round", .round), ("square", .square), ("cubic", .cubic), ("quadratic", .quadratic)]

def joins : List (String × JoinMode) :=
  [("miter", .miter), ("miter-clip", .miterClip), ("arc-clip", .arcClip), ("round", .round), ("arc", .arc), ("bevel", .bevel)]

def gaps : List (String × GapMode) :=
  [("flat", .flat), ("round", .round), ("cubic", .cubic), ("quadratic", .quadratic)]

variable {F : Type}

/-- The keyword properties: for each the values it accepts, and the style they give. -/
def keywords : List (String × String × (PathStyle F → PathStyle F)) :=
  fillRules.map (fun p => ("fill-rule", p.1, fun st => { st with useNonZeroWinding := p.2 })) ++
  caps.map (fun p => ("stroke-linecap", p.1, fun st => { st with join := { st.join with trailLineCap := p.2 } })) ++
  caps.map (fun p => ("stroke-leadlinecap", p.1, fun st => { st with join := { st.join with leadLineCap := p.2 } })) ++
  joins.map (fun p => ("stroke-linejoin", p.1, fun st => { st with join := { st.join with lineJoin := p.2 } })) ++
  gaps.map (fun p => ("stroke-linegap", p.1, fun st => { st with join := { st.join with lineGap := p.2 } }))

def keywordProps : List String := ["fill-rule", "stroke-linecap", "stroke-leadlinecap", "stroke-linejoin", "stroke-linegap"]

end GoSvg.Spec
