import Verif.Spec.GradPaint

/-! Specification: the mask that is in effect when gg paints. -/

namespace GoSvg.Spec

variable {F : Type} [GoFloat F]

/-- The mask set last, if it was not reset: one entry for each fill and stroke. Semantics of gg (trusted): `SetMask` replaces the mask,
`ResetClip` removes it. -/
def ggClipStep (b : Option (List (GGCall F))) : GGCall F → Option (List (GGCall F)) × List (Option (List (GGCall F)))
  | .setMask content => (some content, [])
  | .resetClip => (none, [])
  | .fill => (b, [b])
  | .fillPreserve => (b, [b])
  | .stroke => (b, [b])
  | _ => (b, [])

/-- The fills and strokes of `ps`, each with the clip of its path. -/
def clipsOf (ps : List (SvgPath F)) (clips : List (Option (List (GGCall F)))) : List (Option (List (GGCall F))) :=
  (ps.zip clips).flatMap fun x => (paintOf x.1.style).map fun _ => x.2

end GoSvg.Spec
