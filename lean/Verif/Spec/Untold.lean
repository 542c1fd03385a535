import Verif.Model.Parse

/-! Specification: what is left of a result without its texts. -/

namespace GoSvg.Spec

variable {F : Type}

/-- The result without the titles and descriptions. -/
def untold : Outcome F → Outcome F
  | .done svg e log => .done (svg.map fun s => { s with titles := [], descriptions := [] }) e log
  | .panic s => .panic s
  | .diverge => .diverge

/-- The tags of a document, without text and comments. -/
def onlyTags (ts : List Token) : List Token := ts.filter fun t => match t with
  | .start _ _ => true
  | .stop _ => true
  | _ => false

end GoSvg.Spec
