import Verif.Spec.Gradients
import Verif.Spec.SvgPath

/-! Specification: what `defs` defines, and what `use` refers to.

An element with an `id` inside `defs` begins a definition. The definition goes on up to the next element with an `id`, or to the
end of `defs`: it holds the element, its content, and whatever follows without an `id` of its own. (That the siblings count as part
of the definition is the package's rule, not that of SVG.) Gradients and their content are not part of it. -/

namespace GoSvg.Spec

/-- The value an attribute has for the package: that of the last attribute of this name, empty if there is none. -/
def lastNamed (n : String) (attrs : List Attr) : Str := (valuesNamed n attrs).getLast?.getD []

/-- What a `use` element refers to: `#id` refers to `id`, anything else to nothing. -/
def refOf (attrs : List Attr) : Option Str :=
  match lastNamed "href" attrs with
  | '#' :: id => some id
  | _ => none

/-- The definitions that are complete, the latest first, and the one being read. -/
structure Definitions where
  done : List (Str × List Definition) := []
  open_ : List Definition := []

/-- The definition being read is complete. -/
def Definitions.close (s : Definitions) : Definitions :=
  match s.open_ with
  | [] => s
  | d :: _ => ⟨(d.id, s.open_) :: s.done, []⟩

/-- The end of a group, as it is recorded. -/
def endOfGroup : Definition := ⟨[], "endg".toList, []⟩

/-- One more token, met with the elements `ch` open. -/
def Definitions.next (ch : List Elem) (s : Definitions) : Token → Definitions
  | .start name attrs =>
    if inside "defs" ch = true ∧ insideGrad ch = false ∧ ¬ IsGrad name then
      let s := if lastNamed "id" attrs = [] then s else s.close
      ⟨s.done, s.open_ ++ [⟨lastNamed "id" attrs, name, attrs⟩]⟩
    else s
  | .stop name =>
    if name = "g".toList then if inside "defs" ch = true then ⟨s.done, s.open_ ++ [endOfGroup]⟩ else s
    else if name = "defs".toList then s.close
    else s
  | _ => s

/-- The elements that are open after one more token. -/
def openNext (ch : List Elem) : Token → List Elem
  | .start name attrs => ⟨name, attrs⟩ :: ch
  | .stop _ => ch.tail
  | _ => ch

def definitionsFrom : List Elem → Definitions → List Token → Definitions
  | _, s, [] => s
  | ch, s, t :: ts => definitionsFrom (openNext ch t) (s.next ch t) ts

/-- The definitions in the tokens. -/
def definitionsIn (ts : List Token) : Definitions := definitionsFrom [] {} ts

/-- What `id` stands for after the tokens: the latest definition of that name. -/
def definitionOf (id : Str) (ts : List Token) : Option (List Definition) := (definitionsIn ts).done.lookup id

/-- No definition refers to itself, directly or through others: the definitions can be ranked such that each refers to lower ones
only. -/
def Acyclic (ts : List Token) : Prop :=
  ∃ rank : Str → Nat, ∀ id ds, (id, ds) ∈ (definitionsIn ts).done → ∀ d ∈ ds, d.tag = "use".toList →
    ∀ id', refOf d.attrs = some id' → rank id' < rank id

/-- The properties with a meaning as a declaration. -/
def styleProperties : List String :=
  ["fill", "fill-rule", "stroke", "stroke-linegap", "stroke-leadlinecap", "stroke-linecap", "stroke-linejoin", "stroke-miterlimit",
    "stroke-width", "stroke-dashoffset", "stroke-dasharray", "opacity", "stroke-opacity", "fill-opacity", "transform", "mask"]

/-- The element declares nothing. -/
def Unstyled [GoEnv] (attrs : List Attr) : Prop := ∀ d ∈ declared attrs, ∀ p ∈ styleProperties, d.1 ≠ p.toList

variable (F : Type) [GoFloat F] [GoEnv]

/-- `x` and `y`, if given, are lengths. -/
def Placed (attrs : List Attr) : Prop :=
  ∀ vb : Bounds F, (∀ v ∈ valuesNamed "x" attrs, ∃ x, resolveUnit vb v .width = .ok x) ∧
    ∀ v ∈ valuesNamed "y" attrs, ∃ y, resolveUnit vb v .height = .ok y

/-- The tokens are read without a failure: if the stream breaks off after them, that is the only error. -/
def Reads (fuel : Nat) (m : ErrorMode) (ts : List Token) : Prop :=
  ∀ e, ∃ s l, parse (F := F) fuel m ts (.error e) = .done (some s) (some (.reader e)) l

/-- Definitions that refer to each other in a circle: each of those named in `ids` begins with a `use` of one of them. -/
def Circle (ids : List Str) (ts : List Token) : Prop :=
  ∀ id ∈ ids, ∃ d ds, definitionOf id ts = some (d :: ds) ∧ d.tag = "use".toList ∧ Unstyled d.attrs ∧ Placed F d.attrs ∧
    ∃ id' ∈ ids, refOf d.attrs = some id'

end GoSvg.Spec
