import Verif.Spec.Attrs
import Verif.Spec.Nesting

/-! Specification: the declarations an element carries, and what a colour looks like. `split`, `cut`, `trimSpace` and
`toLower` are the functions of Go's standard library. -/

namespace GoSvg.Spec

variable [GoEnv]

/-- `key:value`, in lower case and trimmed as far as the package does so; what follows a second colon is dropped. -/
def declaration (piece : Str) : Option (Str × Str) :=
  match split ':' piece with
  | k :: v :: _ => some (trimSpace (toLower k), trimSpace v)
  | _ => none

/-- The declarations of an element in the order of its attributes: the pieces of a `style` attribute, and each other attribute
`name="value"` as `name:value`. -/
def declared (attrs : List Attr) : List (Str × Str) :=
  attrs.flatMap fun a =>
    if toLower a.name = "style".toList then (split ';' a.value).filterMap declaration
    else (declaration (a.name ++ ':' :: a.value)).toList

/-- The values declared for `k`. -/
def valuesOf (k : String) (attrs : List Attr) : List Str :=
  ((declared attrs).filter fun d => d.1 = k.toList).map (·.2)

/-- A text that may or may not be a colour but is none of those that crash the parser: it is not empty, a `#` is followed by
three characters at least, no part of `rgb(...)` between commas is empty. -/
def ColorShape (v : Str) : Prop :=
  v ≠ [] ∧ (∀ t, v = '#' :: t → 3 ≤ t.length) ∧ (∀ t, v = "rgb(".toList ++ t → [] ∉ split ',' (trimSuffix t ")".toList))

/-- The colours given to a gradient stop. -/
def stopColors (attrs : List Attr) : List Str :=
  (attrs.filter fun a => a.name = "stop-color".toList).map (·.value) ++
  (attrs.filter fun a => a.name = "style".toList).flatMap fun a => (split ';' a.value).filterMap fun piece =>
    match cut ':' piece with
    | some (k, v) => if toLower (trimSpace k) = "stop-color".toList then some (trimSpace v) else none
    | none => none

/-- Every colour in the document has the shape of one. -/
def ColorsShaped (tokens : List Token) : Prop :=
  ∀ name attrs, Token.start name attrs ∈ tokens →
    (∀ v ∈ valuesOf "fill" attrs ++ valuesOf "stroke" attrs, ColorShape v) ∧ ∀ v ∈ stopColors attrs, ColorShape v

end GoSvg.Spec
