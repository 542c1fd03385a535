import Verif.Spec.Declared

/-! Specification: which tag a path of the drawing comes from, and what the open elements declare. -/

namespace GoSvg.Spec

variable {F : Type}

/-- The paths of the drawing a parse returns. -/
def Outcome.paths : Outcome F → List (SvgPath F)
  | .done (some s) _ _ => s.svgPaths
  | _ => []

/-- The path number `i` comes from the token `t` after `pre`: it is there when the stream breaks off after `t`, but not yet when it
breaks off before. -/
def DrawnBy [GoFloat F] [GoEnv] (fuel : Nat) (m : ErrorMode) (pre : List Token) (t : Token) (i : Nat) : Prop :=
  (Outcome.paths (parse (F := F) fuel m pre (.error 0))).length ≤ i ∧
  i < (Outcome.paths (parse (F := F) fuel m (pre ++ [t]) (.error 0))).length

instance [GoFloat F] [GoEnv] (fuel : Nat) (m : ErrorMode) (pre : List Token) (t : Token) (i : Nat) :
    Decidable (DrawnBy (F := F) fuel m pre t i) := inferInstanceAs (Decidable (_ ∧ _))

/-- Well-nested, and either without `use`, or tidy with complete definitions only. -/
structure Balanced (ts : List Token) : Prop where
  nested : WellNested ts
  use : NoUse ts ∨ Every TidyTag [] ts ∧ Every DefsTag [] ts

/-- The values that the elements of a chain (innermost first) declare for the given properties, from the root to the innermost
element and within an element in the order of its declarations. -/
def valuesAlong [GoEnv] (ks : List String) (ch : List Elem) : List Str :=
  ch.reverse.flatMap fun e => ((declared e.attrs).filter fun d => ks.any fun k => d.1 = k.toList).map (·.2)

/-- White space, comments and the like before the root element. -/
def NoTags (ts : List Token) : Prop := ∀ t ∈ ts, (∀ n a, t ≠ .start n a) ∧ ∀ n, t ≠ .stop n

/-- The element `e` stands in the document `lead`, root element, `body`, `e`, ... with the elements `rel` (innermost first) and the
root open around it. The only `svg` is the root. -/
structure Within (root : Elem) (rel : List Elem) (e : Elem) (lead body : List Token) : Prop where
  prolog : NoTags lead
  inner : openFrom [] body = some rel
  noSvg : ∀ attrs, Token.start "svg".toList attrs ∉ body ++ [.start e.name e.attrs]
  balanced : Balanced (lead ++ .start root.name root.attrs :: (body ++ [.start e.name e.attrs]))

/-- No paint of this kind on these elements is taken from a gradient. -/
def NoGradient [GoEnv] (k : String) (ch : List Elem) : Prop := ∀ v ∈ valuesAlong [k] ch, hasPrefix v "url(".toList = false

end GoSvg.Spec
