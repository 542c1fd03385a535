import Verif.Spec.Outcome

/-! Specification: sizes of documents and pictures. -/

namespace GoSvg.Spec

/-- The number of characters of a token, without the markup between names, values and text, and at least 1. -/
def tokenSize : Token → Nat
  | .start name attrs => 1 + name.length + (attrs.map fun a => 1 + a.name.length + a.value.length).sum
  | .stop name => 1 + name.length
  | .chars s => 1 + s.length
  | .other => 1

/-- The size of a document. -/
def docSize (ts : List Token) : Nat := (ts.map tokenSize).sum

/-- An element that names what it draws itself: not a `use`, and not a polyline or polygon without points. -/
def DrawsOwn (name : Str) (attrs : List Attr) : Prop :=
  name ≠ "use".toList ∧ (name = "polyline".toList ∨ name = "polygon".toList → ∃ a ∈ attrs, a.name = "points".toList)

/-- A document all of whose elements name what they draw themselves. -/
def NoReuse (ts : List Token) : Prop := ∀ t ∈ ts, ∀ name attrs, t = .start name attrs → DrawsOwn name attrs

variable {F : Type}

/-- The operations in a list of paths. -/
def opsIn (ps : List (SvgPath F)) : Nat := (ps.map fun p => p.path.length).sum

/-- All operations of a picture: those of the document and those of the masks. -/
def opsOf (s : Svg F) : Nat := opsIn s.svgPaths + (s.svgMasks.map fun e => opsIn e.2.svgPaths).sum

end GoSvg.Spec
