import Verif.Spec.Outcome

/-! Specification: the elements that are open at a place of a document.

encoding/xml delivers start and end tags that match (its strict mode reports an error otherwise), so what `Parse` reads is the
beginning of a well-nested document: `WellNested`. -/

namespace GoSvg.Spec

/-- An element: name and attributes. -/
structure Elem where
  name : Str
  attrs : List Attr
deriving DecidableEq, Repr

/-- The open elements after the tokens, innermost first; `none` if an end tag does not match. -/
def openFrom (ch : List Elem) : List Token → Option (List Elem)
  | [] => some ch
  | .start name attrs :: ts => openFrom (⟨name, attrs⟩ :: ch) ts
  | .stop name :: ts =>
    match ch with
    | e :: ch => if e.name = name then openFrom ch ts else none
    | [] => none
  | _ :: ts => openFrom ch ts

/-- Every start tag `name`, `attrs` met with the elements `ch` open is allowed by `P`. -/
def Every (P : List Elem → Str → List Attr → Prop) (ch : List Elem) : List Token → Prop
  | [] => True
  | .start name attrs :: ts => P ch name attrs ∧ Every P (⟨name, attrs⟩ :: ch) ts
  | .stop _ :: ts => Every P ch.tail ts
  | _ :: ts => Every P ch ts

def decEvery (P : List Elem → Str → List Attr → Prop) [∀ ch n a, Decidable (P ch n a)] : ∀ ch ts, Decidable (Every P ch ts)
  | _, [] => .isTrue trivial
  | ch, .start n a :: ts =>
    have := decEvery P (⟨n, a⟩ :: ch) ts
    inferInstanceAs (Decidable (_ ∧ _))
  | ch, .stop _ :: ts => decEvery P ch.tail ts
  | ch, .chars _ :: ts => decEvery P ch ts
  | ch, .other :: ts => decEvery P ch ts

instance (P : List Elem → Str → List Attr → Prop) [∀ ch n a, Decidable (P ch n a)] (ch : List Elem) (ts : List Token) :
    Decidable (Every P ch ts) := decEvery P ch ts

/-- The beginning of a well-nested document. -/
def WellNested (ts : List Token) : Prop := (openFrom [] ts).isSome = true

instance (ts : List Token) : Decidable (WellNested ts) := inferInstanceAs (Decidable (_ = _))

/-- One of the open elements is called `n`. -/
def inside (n : String) (ch : List Elem) : Bool := ch.any fun e => e.name = n.toList

/-- One of the open elements is a gradient. -/
def insideGrad (ch : List Elem) : Bool := inside "linearGradient" ch || inside "radialGradient" ch

/-- A gradient. -/
def IsGrad (name : Str) : Prop := name = "linearGradient".toList ∨ name = "radialGradient".toList

instance (name : Str) : Decidable (IsGrad name) := inferInstanceAs (Decidable (_ ∨ _))

/-- The document does not use `use`. -/
def NoUse (ts : List Token) : Prop := ∀ attrs, Token.start "use".toList attrs ∉ ts

/-- Where elements with a meaning of their own may stand: `defs` not within another `defs`, a gradient, a mask, a title or a
description; gradients hold stops only; no title in a title, description in a description, mask in a mask. -/
def TidyTag (ch : List Elem) (name : Str) (_attrs : List Attr) : Prop :=
  (name = "defs".toList → inside "defs" ch = false ∧ inside "mask" ch = false ∧ inside "title" ch = false ∧ inside "desc" ch = false) ∧
  (insideGrad ch = true → name = "stop".toList) ∧
  (inside "defs" ch = false → name = "title".toList → inside "title" ch = false) ∧
  (inside "defs" ch = false → name = "desc".toList → inside "desc" ch = false) ∧
  (inside "defs" ch = false → name = "mask".toList → inside "mask" ch = false)

instance (ch : List Elem) (n : Str) (a : List Attr) : Decidable (TidyTag ch n a) := inferInstanceAs (Decidable (_ ∧ _))

/-- The elements that may stand in `defs` of a document with `use`: shapes, groups and further `use`s. -/
def reusable : List String := ["svg", "g", "stop"] ++ drawing

/-- The elements between the innermost `defs` and the place. -/
def belowDefs (ch : List Elem) : List Elem := ch.takeWhile fun e => e.name ≠ "defs".toList

/-- What may stand in `defs` so that each definition is complete: gradients, and reusable elements; an `id` only on elements
that are not part of a group. -/
def DefsTag (ch : List Elem) (name : Str) (attrs : List Attr) : Prop :=
  inside "defs" ch = true → insideGrad ch = false → ¬ IsGrad name →
    (∃ n ∈ reusable, name = n.toList) ∧ ((∃ a ∈ attrs, a.name = "id".toList) → inside "g" (belowDefs ch) = false)

instance (ch : List Elem) (n : Str) (a : List Attr) : Decidable (DefsTag ch n a) := inferInstanceAs (Decidable (_ → _ → _ → _))

/-- A document (or the beginning of one) that is well-nested, has its special elements where they belong, and if it uses
`use`, then only of complete definitions. -/
structure Tidy (ts : List Token) : Prop where
  nested : WellNested ts
  places : Every TidyTag [] ts
  defs : NoUse ts ∨ Every DefsTag [] ts

end GoSvg.Spec
