import Verif.Spec.Cascade

/-! Specification: what an element of a document contributes to the drawing. -/

namespace GoSvg.Spec

variable {F : Type}

/-- The tag `t` stands after `lead`, the tag of the root and `body`, and before `post`, with the elements `ch` open around it, none of
them `defs` or a mask. The only `svg` is the root, and what precedes is tidy. -/
structure Stands (root : Elem) (ch : List Elem) (t : Token) (lead body post : List Token) : Prop where
  prolog : NoTags lead
  tidy : Tidy (lead ++ .start root.name root.attrs :: body)
  around : openFrom [] (lead ++ .start root.name root.attrs :: body) = some ch
  defs : inside "defs" ch = false
  mask : inside "mask" ch = false
  noSvg : ∀ attrs, Token.start "svg".toList attrs ∉ body ++ t :: post

/-- Of the paths of the drawing `s`, exactly one comes from the token `t` after `pre`, and it has the operations `P`. -/
def Contributes [GoFloat F] [GoEnv] (fuel : Nat) (m : ErrorMode) (pre : List Token) (t : Token) (s : Svg F) (P : Path → Prop) : Prop :=
  ∃ i p, (∀ j, DrawnBy (F := F) fuel m pre t j ↔ j = i) ∧ s.svgPaths[i]? = some p ∧ P p.path

end GoSvg.Spec
