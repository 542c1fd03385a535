import Verif.Spec.Nesting

/-! Specification: the texts of a document. -/

namespace GoSvg.Spec

/-- The character data among the tokens, joined. -/
def charData (ts : List Token) : Str :=
  ts.flatMap fun | .chars s => s | _ => []

/-- The texts of the elements `n` that are not inside `defs`, in document order: for each the character data between its start
tag and the next end tag of that name. `ch` are the open elements. -/
def textsOf (n : String) (ch : List Elem) : List Token → List Str
  | [] => []
  | .start name attrs :: ts =>
    if name = n.toList ∧ inside "defs" ch = false then charData (ts.takeWhile (· ≠ .stop n.toList)) :: textsOf n (⟨name, attrs⟩ :: ch) ts
    else textsOf n (⟨name, attrs⟩ :: ch) ts
  | .stop _ :: ts => textsOf n ch.tail ts
  | _ :: ts => textsOf n ch ts

end GoSvg.Spec
