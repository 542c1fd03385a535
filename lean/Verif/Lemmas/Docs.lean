import Verif.Lemmas.Decide
import Verif.Model.Env
import Verif.Spec.Attrs

/-! Documents for examples and witnesses. -/

namespace GoSvg

open Spec

attribute [local instance] asciiEnv
attribute [local instance] dummyLibm

theorem ready_init {F : Type} [GoFloat F] (mode : ErrorMode) : Ready (initCursor (F := F) mode) defaultStyle := ⟨rfl, rfl, rfl, rfl⟩

/-- An attribute list from texts. -/
def attrsOf (l : List (String × String)) : List Attr := l.map fun p => ⟨p.1.toList, p.2.toList⟩

instance (attrs : List Attr) : Decidable (Distinct attrs) := inferInstanceAs (Decidable (List.Nodup _))
instance (attrs : List Attr) (n : String) (v : Str) : Decidable (Given attrs n v) := inferInstanceAs (Decidable (_ ∈ _))

/-- The paths of a document that is read to its end without an error. -/
def pathsOf (mode : ErrorMode) (tokens : List Token) : Option (List Path) :=
  match parse (F := F64) 8 mode tokens .eof with
  | .done (some svg) none _ => some (svg.svgPaths.map (·.path))
  | _ => none

/-- An element without content. -/
def elem (name : String) (attrs : List (String × String)) (content : List Token := []) : List Token :=
  [.start name.toList (attrsOf attrs)] ++ content ++ [.stop name.toList]

end GoSvg
