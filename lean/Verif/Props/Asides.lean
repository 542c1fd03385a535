import Verif.Props.Places

/-! Documents on which the code disagrees with C40, C46 and SVG. -/

namespace GoSvg

open Spec

attribute [local instance] asciiEnv
attribute [local instance] dummyLibm

set_option maxRecDepth 100000 in
/-- Not in C40, which does not speak of `fr`: by SVG the focal circle of a radial gradient has radius 0 unless given, here it has
half the size of the unit square, like the outer circle. -/
theorem C40_fr_false : (match parse (F := F64) 8 .strict (elem "svg" [] (elem "radialGradient" [("id", "g")] (elem "stop" [("stop-color", "green")]) ++
    elem "rect" [("width", "5"), ("height", "5"), ("fill", "url(#g)")])) .eof with
    | .done (some s) none [] => decide (s.svgPaths.length = 1) && s.svgPaths.all fun p => match p.style.fillerColor with
      | some (.gradient g) => match g.direction with
        | some (.radial _ _ _ _ r fr) => decide (fr = r ∧ fr = GoFloat.ofRat (1 / 2))
        | _ => false
      | _ => false
    | _ => false) = true := by decide +kernel

set_option maxRecDepth 100000 in
/-- C46 does not hold for documents with uses: a `use` of a title in `defs` adds an empty title. -/
theorem C46_use_false : (match parse (F := F64) 8 .strict (elem "svg" [] (elem "defs" [] (elem "title" [("id", "t")] [.chars "a".toList]) ++
    elem "use" [("href", "#t")])) .eof with
    | .done (some s) none [] => decide (s.titles = [[]])
    | _ => false) = true := by decide +kernel

end GoSvg
