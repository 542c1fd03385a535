import Verif.Spec.Cascade
import Verif.Spec.Attrs

/-! Specification: the masks of a drawing. -/

namespace GoSvg.Spec

variable {F : Type}

/-- The mask registered under a name in the drawing a parse returns. -/
def Outcome.mask (o : Outcome F) (id : Str) : Option (SvgMask F) :=
  match o with
  | .done (some s) _ _ => s.svgMasks.find id
  | _ => none

/-- An element with its content. -/
def element (name : String) (attrs : List Attr) (body : List Token) : List Token :=
  .start name.toList attrs :: (body ++ [.stop name.toList])

/-- `mk` is the mask `attrs` with the content `body`, behind `pre`: its paths are those which a group with the same attributes
and the same content adds to the document in the same place, in the same order and with the same styles; its name is the
last `id`. -/
structure MaskOf [GoFloat F] [GoEnv] (fuel : Nat) (m : ErrorMode) (pre : List Token) (attrs : List Attr) (body : List Token) (mk : SvgMask F) : Prop where
  paths : Outcome.paths (parse (F := F) fuel m (pre ++ element "g" attrs body) (.error 0)) =
    Outcome.paths (parse (F := F) fuel m pre (.error 0)) ++ mk.svgPaths
  name : (∃ as bs, attrs = as ++ ⟨"id".toList, mk.id⟩ :: bs ∧ ∀ b ∈ bs, b.name ≠ "id".toList) ∨ (mk.id = [] ∧ ∀ a ∈ attrs, a.name ≠ "id".toList)

end GoSvg.Spec
