import Verif.Lemmas.ShiftDoc
import Verif.Lemmas.DocsNest

/-! C44: the place where `use` draws. -/

set_option linter.unusedSectionVars false

namespace GoSvg

open Spec

variable {F : Type} [GoFloat F] [GoEnv]

open SM (get modify throw lift panic diverge forEach)

/-! ### C44: the shift -/

theorem shift_main {fuel : Nat} {m : ErrorMode} {pre : List Token} {attrs : List Attr} {ch : List Elem} {id : Str} {ds : List Definition}
    (ht : Tidy (pre ++ [.start "use".toList attrs])) (ho : openFrom [] pre = some ch) (hd : inside "defs" ch = false)
    (hm : inside "mask" ch = false) (hid : refOf attrs = some id) (hdef : definitionOf id pre = some ds) (hs : ∀ d ∈ ds, Shiftable d)
    (hdr : ∀ vb : Bounds F, ∀ d ∈ ds, d.tag ≠ "endg".toList → ∃ R, Drawn vb m d R)
    (hp : PathFirst ds) {s0 s1 s2 : Svg F} (h0 : Yields fuel m pre s0) (h1 : Yields fuel m (pre ++ [.start "use".toList attrs]) s1)
    (h2 : Yields fuel m (pre ++ content ds) s2) (hdi : Distinct attrs) {x y : F} (hx : Len s0.viewBox attrs "x" .width x)
    (hy : Len s0.viewBox attrs "y" .height y) :
    ∃ ps qs, s2.svgPaths = s0.svgPaths ++ ps ∧ s1.svgPaths = s0.svgPaths ++ qs ∧ qs.length ≤ 1 ∧
      Shifted x y (ps.flatMap SvgPath.path) (qs.flatMap SvgPath.path) := by
  obtain ⟨c0, r0, rfl⟩ := yields_ok h0
  obtain ⟨c1, r1, rfl⟩ := yields_ok h1
  obtain ⟨c2, r2, rfl⟩ := yields_ok h2
  obtain ⟨c0', r0', k1⟩ := read_split r1
  obtain ⟨c0'', r0'', k2⟩ := read_split r2
  rw [r0] at r0' r0''
  cases r0'
  cases r0''
  obtain ⟨htab, hrest, -⟩ := tidy_reads ht r0 ho
  have hh := here_of r0 hrest.tidy.flags hd hm
  have hR : ∀ d, ∃ R, d ∈ ds → d.tag ≠ "endg".toList → Drawn c0.svg.viewBox m d R := by
    intro d
    by_cases h : d ∈ ds ∧ d.tag ≠ "endg".toList
    · obtain ⟨R, hR⟩ := hdr c0.svg.viewBox d h.1 h.2
      exact ⟨R, fun _ _ => hR⟩
    · exact ⟨[], fun h1 h2 => absurd ⟨h1, h2⟩ h⟩
  choose R hR using hR
  obtain ⟨ps, p1, p2⟩ := content_here ds hs hR c0 c2 hh k2
  rw [readTokens_cons] at k1
  obtain ⟨_, c3, k3, k4⟩ := bind_ok k1
  cases k4
  obtain ⟨qs, q1, q2, q3⟩ := use_here hid hR hp ((htab.done id).trans hdef) hh hdi hx hy k3
  exact ⟨ps, qs, p1, q1, q2, drawnBy R ds, p2, q3⟩

/-- C44, partial, any arithmetic: a definition of groups, lines, polylines, polygons and paths without arcs. The `use` element draws
the operations that its content would draw if it were written in the place of the `use`, with each point shifted by (`x`, `y`) before
it is rounded; all of them in one path. `x` and `y` are the lengths of these attributes, zero without the attribute. Missing: circles,
ellipses and rectangles, for which see `C44_shift_real_partial`; arcs in paths and paths after other shapes, for which it is false,
see `C44_arc_false` and `C44_path_false`; nested uses, see `C44_nested_false`. -/
theorem C44_shift_partial {fuel : Nat} {m : ErrorMode} {pre : List Token} {attrs : List Attr} {ch : List Elem} {id : Str}
    {ds : List Definition} (ht : Tidy (pre ++ [.start "use".toList attrs])) (ho : openFrom [] pre = some ch)
    (hd : inside "defs" ch = false) (hm : inside "mask" ch = false) (hid : refOf attrs = some id) (hdef : definitionOf id pre = some ds)
    (hs : ∀ d ∈ ds, ShiftablePlain d) (hp : PathFirst ds) {s0 s1 s2 : Svg F} (h0 : Yields fuel m pre s0)
    (h1 : Yields fuel m (pre ++ [.start "use".toList attrs]) s1) (h2 : Yields fuel m (pre ++ content ds) s2) (hdi : Distinct attrs)
    {x y : F} (hx : Len s0.viewBox attrs "x" .width x) (hy : Len s0.viewBox attrs "y" .height y) :
    ∃ ps qs, s2.svgPaths = s0.svgPaths ++ ps ∧ s1.svgPaths = s0.svgPaths ++ qs ∧ qs.length ≤ 1 ∧
      Shifted x y (ps.flatMap SvgPath.path) (qs.flatMap SvgPath.path) :=
  shift_main ht ho hd hm hid hdef (fun d h => .inl (hs d h)) (fun vb d h he => plain_drawn vb m (hs d h) he) hp h0 h1 h2 hdi hx hy

/-- C44, partial, exact arithmetic: the same with circles, ellipses and rectangles without rounded corners. -/
theorem C44_shift_real_partial {fuel : Nat} {m : ErrorMode} {pre : List Token} {attrs : List Attr} {ch : List Elem} {id : Str}
    {ds : List Definition} (ht : Tidy (pre ++ [.start "use".toList attrs])) (ho : openFrom [] pre = some ch)
    (hd : inside "defs" ch = false) (hm : inside "mask" ch = false) (hid : refOf attrs = some id) (hdef : definitionOf id pre = some ds)
    (hs : ∀ d ∈ ds, Shiftable d) (hp : PathFirst ds) {s0 s1 s2 : Svg ℝ} (h0 : Yields fuel m pre s0)
    (h1 : Yields fuel m (pre ++ [.start "use".toList attrs]) s1) (h2 : Yields fuel m (pre ++ content ds) s2) (hdi : Distinct attrs)
    {x y : ℝ} (hx : Len s0.viewBox attrs "x" .width x) (hy : Len s0.viewBox attrs "y" .height y) :
    ∃ ps qs, s2.svgPaths = s0.svgPaths ++ ps ∧ s1.svgPaths = s0.svgPaths ++ qs ∧ qs.length ≤ 1 ∧
      Shifted x y (ps.flatMap SvgPath.path) (qs.flatMap SvgPath.path) :=
  shift_main ht ho hd hm hid hdef hs (fun vb d h he => shiftable_drawn vb m (hs d h) he) hp h0 h1 h2 hdi hx hy

/-! ### C44: afterwards -/

/-- Two states that draw alike. -/
structure SameUse (c1 c2 : Cursor F) : Prop where
  viewBox : c1.svg.viewBox = c2.svg.viewBox
  mode : c1.pc.errorMode = c2.pc.errorMode
  path : c1.pc.path = c2.pc.path
  curX : c1.pc.curX = c2.pc.curX
  curY : c1.pc.curY = c2.pc.curY

theorem path_alike : ∀ (attrs : List Attr) {c1 c2 : Cursor F}, SameUse c1 c2 →
    (pathF attrs c1).1 = (pathF attrs c2).1 ∧ (pathF attrs c1).2.pc.path = (pathF attrs c2).2.pc.path
  | [], _, _, h => ⟨rfl, h.path⟩
  | a :: as, c1, c2, h => by
    have hrun : ∀ c : Cursor F, pathF (a :: as) c = (pathAttr () a >>= fun _ => pathF as) c := fun _ => rfl
    rw [hrun, hrun, SM.bind_run, SM.bind_run]
    by_cases hn : a.name = "d".toList
    · have e : pathAttr () a = (onPath (compilePath a.value) : CM F Unit) := if_pos hn
      have he : ∀ c : Cursor F, pathAttr () a c = ((compilePath a.value c.pc).1, { c with pc := (compilePath a.value c.pc).2 }) := by
        intro c; rw [e]; rfl
      obtain ⟨k1, k2⟩ := segs_eqv (segsGo none a.value) (eqv_init h.curX h.curY h.mode)
      rw [← compilePath_segs, ← compilePath_segs] at k1 k2
      rw [he, he]
      rcases hp1 : compilePath a.value c1.pc with ⟨r1, d1⟩
      rcases hp2 : compilePath a.value c2.pc with ⟨r2, d2⟩
      rw [hp1, hp2] at k1 k2
      dsimp only at k1 k2
      subst k1
      cases r1 with
      | ok u => exact path_alike as ⟨h.viewBox, k2.mode, k2.path, k2.curX, k2.curY⟩
      | err e => exact ⟨rfl, k2.path⟩
      | panic e => exact ⟨rfl, k2.path⟩
      | diverge => exact ⟨rfl, k2.path⟩
    · have e : pathAttr () a = (pure () : CM F Unit) := if_neg hn
      rw [e]
      exact path_alike as h

theorem shape_alike {fuel : Nat} {name : Str} {attrs : List Attr} {df : List Attr → CM F Unit} (hs : name ∈ shapeTags)
    (hp : name = "polyline".toList ∨ name = "polygon".toList → valuesNamed "points" attrs ≠ [])
    (hdf : drawFuncs fuel (useF fuel) name = some df) {c1 c2 d1 d2 : Cursor F} {u1 u2 : Unit} (h : SameUse c1 c2)
    (h1 : df attrs c1 = (.ok u1, d1)) (h2 : df attrs c2 = (.ok u2, d2)) : d1.pc.path = d2.pc.path := by
  have viaDraws : ∀ R, Draws c2.svg.viewBox c2.pc.errorMode false R (df attrs) → d1.pc.path = d2.pc.path := by
    intro R hR
    rw [hR c1 d1 u1 h.viewBox h.mode h1, hR c2 d2 u2 rfl rfl h2, h.path, sto_eq h.curX h.curY]
  unfold shapeTags at hs
  simp only [List.mem_cons, List.not_mem_nil, or_false] at hs
  rcases hs with rfl | rfl | rfl | rfl | rfl | rfl | rfl
  · cases hdf
    obtain ⟨R, hR⟩ := line_draws c2.svg.viewBox c2.pc.errorMode attrs
    exact viaDraws R hR
  · cases hdf
    unfold rectF at h1 h2
    rw [SM.bind_run, SM.get_run] at h1 h2
    dsimp only at h1 h2
    rw [SM.bind_run, SM.lift_run] at h1 h2
    rw [h.viewBox, h.curX, h.curY] at h1
    cases hv : Res.loop (rectAttr c2.svg.viewBox) ⟨num 0, num 0, num 0, num 0, num 0, num 0⟩ attrs with
    | ok v =>
      rw [hv] at h1 h2
      dsimp only at h1 h2
      cases ho : rectOps fuel c2.pc.curX c2.pc.curY v with
      | none => rw [ho] at h1; cases h1
      | some ops =>
        rw [ho] at h1 h2
        dsimp only at h1 h2
        rw [SM.modify_run] at h1 h2
        obtain ⟨-, rfl⟩ := Prod.mk.inj h1
        obtain ⟨-, rfl⟩ := Prod.mk.inj h2
        show c1.pc.path ++ _ = c2.pc.path ++ _
        rw [h.path]
    | err e => rw [hv] at h1; cases h1
    | panic e => rw [hv] at h1; cases h1
    | diverge => rw [hv] at h1; cases h1
  all_goals try
    (cases hdf
     unfold circleF at h1 h2
     rw [SM.bind_run, SM.get_run] at h1 h2
     dsimp only at h1 h2
     rw [SM.bind_run, SM.lift_run] at h1 h2
     rw [h.viewBox] at h1
     cases hv : Res.loop (circleAttr c2.svg.viewBox) ⟨num 0, num 0, num 0, num 0⟩ attrs with
     | ok v =>
       rw [hv] at h1 h2
       dsimp only at h1 h2
       by_cases h0 : (GoFloat.eq v.rx (num 0) || GoFloat.eq v.ry (num 0)) = true
       · rw [if_pos h0] at h1 h2
         obtain ⟨-, rfl⟩ := Prod.mk.inj h1
         obtain ⟨-, rfl⟩ := Prod.mk.inj h2
         exact h.path
       · rw [if_neg h0, SM.modify_run] at h1 h2
         obtain ⟨-, rfl⟩ := Prod.mk.inj h1
         obtain ⟨-, rfl⟩ := Prod.mk.inj h2
         dsimp only [ellipseAt]
         rw [h.path, h.curX, h.curY]
     | err e => rw [hv] at h1; cases h1
     | panic e => rw [hv] at h1; cases h1
     | diverge => rw [hv] at h1; cases h1)
  · cases hdf
    obtain ⟨R, hR⟩ := polyline_draws c2.svg.viewBox c2.pc.errorMode (hp (.inl rfl))
    exact viaDraws R hR
  · cases hdf
    obtain ⟨R, hR⟩ := polygon_draws c2.svg.viewBox c2.pc.errorMode (hp (.inr rfl))
    exact viaDraws R hR
  · cases hdf
    have := (path_alike attrs h).2
    rw [h1, h2] at this
    exact this

theorem start_emits {vb : Bounds F} {m : ErrorMode} {fuel : Nat} {name : Str} {attrs : List Attr} (hs : name ∈ shapeTags) {c c' : Cursor F}
    (hc : Here vb m c) (h : readToken fuel (.start name attrs) c = (.ok (), c')) :
    ∃ df c1 c2 ps, drawFuncs fuel (useF fuel) name = some df ∧ Here vb m c1 ∧ df attrs c1 = (.ok (), c2) ∧
      c'.svg.svgPaths = c.svg.svgPaths ++ ps ∧ ps.map SvgPath.path = if c2.pc.path = [] then [] else [c2.pc.path] := by
  rw [readToken] at h
  obtain ⟨_, c1, h1, h2⟩ := bind_ok h
  have hsm := pushStyle_same h1
  have hc1 := here_same hsm hc
  have hnu : name ≠ "use".toList := by rintro rfl; revert hs; decide
  rcases readStartElement_cases fuel name attrs c1 with ⟨k, -⟩ | ⟨-, ⟨k, -⟩ | ⟨df, hdf, ⟨hn, h'⟩ | ⟨htm, c2, hE, h'⟩ | ⟨htm, -, h'⟩⟩⟩
  · rw [hc1.inDefs] at k; cases k
  · exfalso
    unfold shapeTags at hs
    simp only [List.mem_cons, List.not_mem_nil, or_false] at hs
    rcases hs with rfl | rfl | rfl | rfl | rfl | rfl | rfl <;> cases k
  · rw [h2] at h'
    rw [← h'] at hn
    exact absurd trivial hn
  · rw [h2] at h'
    obtain ⟨e1, rfl⟩ := Prod.mk.inj h'
    have hk := drawFuncs_plain hdf hnu attrs c1
    have hdr : DrawR c1 (df attrs c1).2 := by
      rcases drawFuncs_cases hdf with ⟨-, h⟩ | ⟨rfl, -⟩ | ⟨rfl, -⟩ | ⟨rfl, -⟩ | ⟨rfl, -⟩ | ⟨rfl, -⟩ | ⟨rfl, -⟩ | ⟨rfl, -⟩ | ⟨rfl, -⟩ |
        ⟨rfl, -⟩ | ⟨rfl, -⟩
      · exact h attrs c1
      all_goals exact absurd hs (by decide)
    rcases hx : df attrs c1 with ⟨r, c2⟩
    rw [hx] at e1 hE hk hdr
    dsimp only at e1 hE hk hdr
    subst e1
    have hm2 : c2.inMask = false := by rw [hdr.eq]; exact hc1.inMask
    obtain ⟨ps, p1, p2, p3, -⟩ := emit_here hE hm2
    refine ⟨df, c1, c2, ps, hdf, hc1, hx, ?_, ?_⟩
    · rw [p1, hk.svgPaths, hsm.paths]
    · clear h h2 h'
      cases hE with
      | nothing hne =>
        rw [if_pos hne]
        have : ps = [] := List.append_cancel_left (p1.symm.trans (List.append_nil _).symm)
        rw [this]; rfl
      | lost hne hm' => rw [hm2] at hm'; cases hm'
      | mask hne hm' => rw [hm2] at hm'; cases hm'
      | doc hne _ st rest hst =>
        rw [if_neg hne, ← List.append_cancel_left p1]; rfl
  · rw [h'] at h2; cases h2

/-- C44, the second half: the offset of a `use` is gone after it. Whatever has been read before, with or without `use`, a shape draws
the same operations (as long as the view box is the same). A polyline must have points; without, it draws again the numbers read
last. -/
theorem C44_gone {fuel : Nat} {m : ErrorMode} {pre1 pre2 : List Token} {ch1 ch2 : List Elem} {name : Str} {attrs : List Attr}
    (ht1 : Tidy pre1) (ht2 : Tidy pre2) (ho1 : openFrom [] pre1 = some ch1) (ho2 : openFrom [] pre2 = some ch2)
    (hd1 : inside "defs" ch1 = false) (hm1 : inside "mask" ch1 = false) (hd2 : inside "defs" ch2 = false) (hm2 : inside "mask" ch2 = false)
    (hn : name ∈ ["line", "rect", "circle", "ellipse", "polyline", "polygon", "path"].map String.toList)
    (hp : name = "polyline".toList ∨ name = "polygon".toList → valuesNamed "points" attrs ≠ []) {s1 s2 t1 t2 : Svg F}
    (h1 : Yields fuel m pre1 s1) (h2 : Yields fuel m pre2 s2) (hv : s1.viewBox = s2.viewBox)
    (k1 : Yields fuel m (pre1 ++ [.start name attrs]) t1) (k2 : Yields fuel m (pre2 ++ [.start name attrs]) t2) :
    ∃ ps1 ps2, t1.svgPaths = s1.svgPaths ++ ps1 ∧ t2.svgPaths = s2.svgPaths ++ ps2 ∧ ps1.map SvgPath.path = ps2.map SvgPath.path := by
  obtain ⟨c1, r1, rfl⟩ := yields_ok h1
  obtain ⟨c2, r2, rfl⟩ := yields_ok h2
  obtain ⟨e1, q1, rfl⟩ := yields_ok k1
  obtain ⟨e2, q2, rfl⟩ := yields_ok k2
  obtain ⟨c1', r1', j1⟩ := read_split q1
  obtain ⟨c2', r2', j2⟩ := read_split q2
  rw [r1] at r1'
  rw [r2] at r2'
  cases r1'
  cases r2'
  rw [readTokens_cons] at j1 j2
  obtain ⟨_, d1, i1, i1'⟩ := bind_ok j1
  obtain ⟨_, d2, i2, i2'⟩ := bind_ok j2
  cases i1'
  cases i2'
  have flags : ∀ {pre : List Token} {ch : List Elem} {c : Cursor F}, Tidy pre → openFrom [] pre = some ch →
      readTokens fuel pre (initCursor (F := F) m) = (.ok (), c) → FlagsAt ch c := by
    intro pre ch c ht ho hr
    exact (tidy_table pre [] ch _ c () {} [] (by rw [List.append_nil]; exact tidy_start m ht (tokensOK_color _)) (tableAt_init m) ho hr).2.tidy.flags
  have g1 := here_of r1 (flags ht1 ho1 r1) hd1 hm1
  have g2 := here_of r2 (flags ht2 ho2 r2) hd2 hm2
  have hs : name ∈ shapeTags := hn
  obtain ⟨df, a1, b1, ps1, f1, f2, f3, f4, f5⟩ := start_emits hs g1 i1
  obtain ⟨df', a2, b2, ps2, f1', f2', f3', f4', f5'⟩ := start_emits hs g2 i2
  rw [f1] at f1'
  cases f1'
  have := shape_alike hs hp f1 ⟨by rw [f2.viewBox, f2'.viewBox, hv], by rw [f2.mode, f2'.mode], by rw [f2.path, f2'.path],
    by rw [f2.curX, f2'.curX], by rw [f2.curY, f2'.curY]⟩ f3 f3'
  exact ⟨ps1, ps2, f4, f4', by rw [f5, f5', this]⟩

end GoSvg

namespace GoSvg

open Spec

section Examples

attribute [local instance] asciiEnv
attribute [local instance] dummyLibm

theorem yields_of {fuel : Nat} {m : ErrorMode} {ts : List Token}
    (h : (match (readTokens fuel ts (initCursor (F := F64) m)).1 with | .ok _ => true | _ => false) = true) :
    Yields fuel m ts (readTokens fuel ts (initCursor (F := F64) m)).2.svg := by
  split at h
  · rename_i a ha
    exact ok_yields (c := (readTokens fuel ts (initCursor (F := F64) m)).2) (Prod.ext ha rfl)
  · cases h

/-- A definition with a path, a group, a line and a polygon. -/
def shiftPre : List Token :=
  [.start "svg".toList (attrsOf [("viewBox", "0 0 100 100")])] ++ elem "defs" [] (elem "g" [("id", "a")]
    (elem "path" [("d", "M1 2l3 4q1 1 2 2z")] ++ elem "g" [("fill", "red")] (elem "line" [("x2", "5"), ("y1", "10%")]) ++
      elem "polygon" [("points", "0 0 1 1 2 0")]))

def shiftUse : List Attr := attrsOf [("href", "#a"), ("x", "10%"), ("y", "2")]

theorem shift_ex : ∃ ds, definitionOf "a".toList shiftPre = some ds ∧ (∀ d ∈ ds, ShiftablePlain d) ∧ PathFirst ds ∧
    ds.map (·.tag) = ["g", "path", "g", "line", "endg", "polygon", "endg"].map String.toList ∧
    (match (readTokens 3 (shiftPre ++ content ds) (initCursor (F := F64) .strict)).1 with | .ok _ => true | _ => false) = true := by
  have h : ∃ ds ∈ definitionOf "a".toList shiftPre, (∀ d ∈ ds, ShiftablePlain d) ∧ PathFirst ds ∧
    ds.map (·.tag) = ["g", "path", "g", "line", "endg", "polygon", "endg"].map String.toList ∧
    (match (readTokens 3 (shiftPre ++ content ds) (initCursor (F := F64) .strict)).1 with | .ok _ => true | _ => false) = true := by decide +kernel
  exact h

/-- C44 applies to it. The offset is a tenth of the view box in x, 2 in y. -/
theorem shift_holds : ∃ (s0 s1 s2 : Svg F64) (ds : List Definition) (x y : F64) (ps qs : List (SvgPath F64)),
    Yields 3 .strict shiftPre s0 ∧ Yields 3 .strict (shiftPre ++ [.start "use".toList shiftUse]) s1 ∧
    Yields 3 .strict (shiftPre ++ content ds) s2 ∧ s2.svgPaths = s0.svgPaths ++ ps ∧ s1.svgPaths = s0.svgPaths ++ qs ∧ qs.length ≤ 1 ∧
    Shifted x y (ps.flatMap SvgPath.path) (qs.flatMap SvgPath.path) := by
  obtain ⟨ds, h1, h2, h3, -, h4⟩ := shift_ex
  have y0 := yields_of (fuel := 3) (m := .strict) (ts := shiftPre) (by decide +kernel)
  have y1 := yields_of (fuel := 3) (m := .strict) (ts := shiftPre ++ [.start "use".toList shiftUse]) (by decide +kernel)
  have y2 := yields_of h4
  have hlen : ∀ n : String, ∀ v : Str, ∀ r : PercRef, Given shiftUse n v →
      (∃ x, resolveUnit (readTokens 3 shiftPre (initCursor (F := F64) .strict)).2.svg.viewBox v r = .ok x) →
      ∃ x, Len (readTokens 3 shiftPre (initCursor (F := F64) .strict)).2.svg.viewBox shiftUse n r x :=
    fun n v r hg ⟨x, hx⟩ => ⟨x, .inl ⟨v, hg, hx⟩⟩
  have ok : ∀ {r : Res F64}, (match r with | .ok _ => true | _ => false) = true → ∃ x, r = .ok x := by
    intro r h; cases r with
    | ok x => exact ⟨x, rfl⟩
    | _ => cases h
  obtain ⟨x, hx⟩ := hlen "x" "10%".toList .width (by decide +kernel) (ok (by decide +kernel))
  obtain ⟨y, hy⟩ := hlen "y" "2".toList .height (by decide +kernel) (ok (by decide +kernel))
  obtain ⟨ps, qs, k⟩ := C44_shift_partial (ch := [⟨"svg".toList, attrsOf [("viewBox", "0 0 100 100")]⟩]) (id := "a".toList)
    ⟨by decide +kernel, by decide +kernel, .inr (by decide +kernel)⟩ (by decide +kernel) (by decide +kernel) (by decide +kernel)
    (by decide +kernel) h1 h2 h3 y0 y1 y2 (by decide +kernel) hx hy
  exact ⟨_, _, _, ds, x, y, ps, qs, y0, y1, y2, k⟩

/-- What is drawn: ten operations, starting at (11, 4) instead of (1, 2). -/
theorem shift_draws : (pathsOf .strict (shiftPre ++ [.start "use".toList shiftUse])).map (·.map fun p => (p.length, p.head?)) =
    some [(10, some (.moveTo ⟨704, 256⟩))] := by decide +kernel

/-! In exact arithmetic, with a circle -/

theorem circle_ok {F : Type} [GoFloat F] {attrs : List Attr} {c : Cursor F}
    (h : ∃ v, Res.loop (circleAttr c.svg.viewBox) ⟨num 0, num 0, num 0, num 0⟩ attrs = .ok v) :
    ∃ c', circleF attrs c = (.ok (), c') ∧ c'.styleStack = c.styleStack ∧ c'.inDefs = c.inDefs := by
  obtain ⟨v, hv⟩ := h
  have hk := circleF_keeps attrs c
  have e := hk.eq
  have : (circleF attrs c).1 = .ok () := by
    unfold circleF
    simp only [SM.bind_run, SM.get_run, SM.lift_run, hv]
    split <;> rfl
  exact ⟨_, Prod.ext this rfl, congrArg (·.styleStack) e, congrArg (·.inDefs) e⟩

theorem start_ok {F : Type} [GoFloat F] {fuel : Nat} {name : Str} {attrs : List Attr} {df : List Attr → CM F Unit} {c c2 : Cursor F}
    {top : PathStyle F} {rest : List (PathStyle F)} (hcs : c.styleStack = top :: rest) (hu : Unstyled attrs) (hn : c.inDefs = false)
    (hdf : drawFuncs fuel (useF (F := F) fuel) name = some df)
    (h : df attrs { c with styleStack := top :: c.styleStack } = (.ok (), c2)) (h2 : c2.styleStack ≠ []) :
    ∃ c', readToken fuel (.start name attrs) c = (.ok (), c') ∧ c'.styleStack = c2.styleStack := by
  rw [readToken, SM.bind_run, pushStyle_unstyled hu hcs]
  dsimp only
  rcases readStartElement_cases fuel name attrs { c with styleStack := top :: c.styleStack } with ⟨k, -⟩ | ⟨-, ⟨k, -⟩ | ⟨df', k, k2⟩⟩
  · exact absurd (hn.symm.trans k) (by decide)
  · rw [hdf] at k; cases k
  · rw [hdf] at k; cases k
    rw [h] at k2
    rcases k2 with ⟨k, -⟩ | ⟨-, c', kE, k⟩ | ⟨-, k, -⟩
    · exact absurd trivial k
    · refine ⟨c', k, ?_⟩
      cases kE <;> rfl
    · exact absurd k h2

theorem use_circle_ok {F : Type} [GoFloat F] {fuel : Nat} {attrs : List Attr} {id : Str} {d : Definition} {c : Cursor F}
    (hs : c.styleStack ≠ []) (hu : Unstyled attrs) (hx : ∃ v, Res.loop (useAttr c.svg.viewBox) ⟨[], num 0, num 0⟩ attrs = .ok v)
    (hid : refOf attrs = some id) (hf : c.svg.defs.find id = some [d]) (ht : d.tag = "circle".toList) (hd : Unstyled d.attrs)
    (hc : ∃ v, Res.loop (circleAttr c.svg.viewBox) ⟨num 0, num 0, num 0, num 0⟩ d.attrs = .ok v) (hn : c.inDefs = false) :
    ∃ c', readToken (fuel + 1) (.start "use".toList attrs) c = (.ok (), c') := by
  cases hcs : c.styleStack with
  | nil => exact absurd hcs hs
  | cons top rest =>
    generalize hc1 : ({ c with styleStack := top :: c.styleStack } : Cursor F) = c1
    have e1 : c1.styleStack = top :: c.styleStack := by rw [← hc1]
    have e2 : c1.svg = c.svg := by rw [← hc1]
    have e3 : c1.inDefs = c.inDefs := by rw [← hc1]
    have huse : ∃ c2, useF (fuel + 1) attrs c1 = (.ok (), c2) ∧ c2.styleStack ≠ [] ∧ c2.inDefs = c.inDefs := by
      rcases useF_cases fuel attrs c1 with ⟨e, he, -⟩ | ⟨v, -, h⟩
      · obtain ⟨v, hv⟩ := hx
        rw [e2, hv] at he; cases he
      · rw [h]
        unfold withOffset
        generalize hc2 : ({ c1 with pc := { c1.pc with curX := v.x, curY := v.y } } : Cursor F) = c2
        have g1 : c2.styleStack = top :: c.styleStack := by rw [← hc2]; exact e1
        have g2 : c2.svg = c.svg := by rw [← hc2]; exact e2
        have g3 : c2.inDefs = c.inDefs := by rw [← hc2]; exact e3
        rcases useBody_cases (drawFuncs fuel (useF (F := F) fuel)) attrs c2 with ⟨-, k, -⟩ | ⟨-, k, -⟩ | ⟨id', k, k2, -⟩ | ⟨id', ds, k, k2, k3⟩
        · rw [hid] at k; cases k
        · rw [hid] at k; cases k
        · rw [hid] at k; cases k; rw [g2, hf] at k2; cases k2
        · rw [hid] at k; cases k; rw [g2, hf] at k2; cases k2
          rw [k3, useLoop, if_neg (by rw [ht]; decide), SM.bind_run, pushStyle_unstyled hd g1, ht]
          dsimp only
          obtain ⟨c3, l1, l2, l3⟩ := circle_ok (attrs := d.attrs) (c := { c2 with styleStack := top :: c2.styleStack })
            (by rw [show ({ c2 with styleStack := top :: c2.styleStack } : Cursor F).svg = c.svg from g2]; exact hc)
          have hdf : drawFuncs fuel (useF (F := F) fuel) "circle".toList = some circleF := rfl
          rw [hdf]
          dsimp only
          rw [SM.bind_run, l1]
          dsimp only at l2 l3 ⊢
          rw [if_pos (by decide), SM.bind_run]
          unfold popStyle
          rw [l2]
          dsimp only
          refine ⟨_, rfl, ?_, l3.trans g3⟩
          show c2.styleStack ≠ []
          rw [g1]; simp
    obtain ⟨c2, h1, h2, h3⟩ := huse
    obtain ⟨c', k, -⟩ := start_ok (fuel := fuel + 1) (name := "use".toList) hcs hu hn (drawFuncs_use _ _) (by rw [hc1]; exact h1) h2
    exact ⟨c', k⟩

theorem circle_elem_ok {F : Type} [GoFloat F] {fuel : Nat} {attrs : List Attr} {c : Cursor F} (hs : c.styleStack ≠ []) (hu : Unstyled attrs)
    (hc : ∃ v, Res.loop (circleAttr c.svg.viewBox) ⟨num 0, num 0, num 0, num 0⟩ attrs = .ok v) (hn : c.inDefs = false) :
    ∃ c', readTokens fuel [.start "circle".toList attrs, .stop "circle".toList] c = (.ok (), c') := by
  cases hcs : c.styleStack with
  | nil => exact absurd hcs hs
  | cons top rest =>
    obtain ⟨c2, h1, h2, h3⟩ := circle_ok (attrs := attrs) (c := { c with styleStack := top :: c.styleStack }) hc
    obtain ⟨c', k, k2⟩ := start_ok (fuel := fuel) (name := "circle".toList) hcs hu hn rfl h1 (by rw [h2]; simp)
    rw [readTokens_cons, SM.bind_run, k]
    dsimp only
    rw [readTokens_cons, SM.bind_run, readToken]
    unfold readEndElement
    rw [SM.bind_run]
    unfold popStyle
    rw [k2, h2]
    exact ⟨_, rfl⟩

/-- A circle to be used, and its `use`. -/
def roundPre : List Token := [.start "svg".toList []] ++ elem "defs" [] (elem "circle" [("id", "a"), ("r", "2")])

def roundUse : List Attr := attrsOf [("href", "#a"), ("x", "3")]

/-- C44 in exact arithmetic applies to it. -/
theorem shift_real_holds : ∃ (s0 s1 s2 : Svg ℝ) (ds : List Definition) (ps qs : List (SvgPath ℝ)),
    Yields 3 .strict roundPre s0 ∧ Yields 3 .strict (roundPre ++ [.start "use".toList roundUse]) s1 ∧
    Yields 3 .strict (roundPre ++ content ds) s2 ∧ s2.svgPaths = s0.svgPaths ++ ps ∧ s1.svgPaths = s0.svgPaths ++ qs ∧ qs.length ≤ 1 ∧
    ∃ x : ℝ, Shifted x 0 (ps.flatMap SvgPath.path) (qs.flatMap SvgPath.path) := by
  have ok : ∀ {α : Type} {r : Res α}, (match r with | .ok _ => true | _ => false) = true → ∃ x, r = .ok x := by
    intro α r h; cases r with
    | ok x => exact ⟨x, rfl⟩
    | _ => cases h
  obtain ⟨c, hc⟩ : ∃ c, c = (readTokens 3 roundPre (initCursor (F := ℝ) .strict)).2 := ⟨_, rfl⟩
  have h0 : readTokens 3 roundPre (initCursor (F := ℝ) .strict) = (.ok (), c) := by
    obtain ⟨⟨⟩, hu⟩ := ok (r := (readTokens 3 roundPre (initCursor (F := ℝ) .strict)).1) (by decide +kernel)
    exact Prod.ext hu hc.symm
  have hs : c.styleStack ≠ [] := by
    have : c.styleStack.length = 2 := by rw [hc]; decide +kernel
    intro h; rw [h] at this; cases this
  have hn : c.inDefs = false := by rw [hc]; decide +kernel
  have hf : c.svg.defs.find "a".toList = some [⟨"a".toList, "circle".toList, attrsOf [("id", "a"), ("r", "2")]⟩] := by rw [hc]; decide +kernel
  have hu : ∃ v, Res.loop (useAttr c.svg.viewBox) ⟨[], num 0, num 0⟩ roundUse = .ok v := by rw [hc]; exact ok (by decide +kernel)
  have hv : ∃ v, Res.loop (circleAttr c.svg.viewBox) ⟨num 0, num 0, num 0, num 0⟩ (attrsOf [("id", "a"), ("r", "2")]) = .ok v := by
    rw [hc]; exact ok (by decide +kernel)
  have hx : ∃ x, Len c.svg.viewBox roundUse "x" .width x := by
    obtain ⟨x, hx⟩ : ∃ x, resolveUnit c.svg.viewBox "3".toList .width = .ok x := by rw [hc]; exact ok (by decide +kernel)
    exact ⟨x, .inl ⟨_, (by decide +kernel : Given roundUse "x" "3".toList), hx⟩⟩
  have hun : Unstyled roundUse := by unfold Unstyled; decide +kernel
  have hun2 : Unstyled (attrsOf [("id", "a"), ("r", "2")]) := by unfold Unstyled; decide +kernel
  obtain ⟨c1, h1⟩ := use_circle_ok (fuel := 2) hs hun hu (by decide +kernel : refOf roundUse = some "a".toList) hf rfl hun2 hv hn
  obtain ⟨c2, h2⟩ := circle_elem_ok (fuel := 3) hs hun2 hv hn
  obtain ⟨x, hx⟩ := hx
  have y0 := ok_yields h0
  have y1 := ok_yields (read_join h0 (show readTokens 3 [.start "use".toList roundUse] c = (.ok (), c1) by
    rw [readTokens_cons, SM.bind_run, h1]; rfl))
  have y2 := ok_yields (read_join h0 h2)
  obtain ⟨ps, qs, k1, k2, k3, k4⟩ := C44_shift_real_partial (ch := [⟨"svg".toList, []⟩]) (id := "a".toList)
    (ds := [⟨"a".toList, "circle".toList, attrsOf [("id", "a"), ("r", "2")]⟩]) (y := 0)
    ⟨by decide +kernel, by decide +kernel, .inr (by decide +kernel)⟩ (by decide +kernel) (by decide +kernel) (by decide +kernel)
    (by decide +kernel) (by decide +kernel) (by decide +kernel) (by decide +kernel) y0 y1 y2 (by decide +kernel) hx
    (.inr ⟨fun v h => absurd (List.mem_map_of_mem (f := Attr.name) h) (by show ¬ "y".toList ∈ _; decide +kernel), by simp⟩)
  exact ⟨_, _, _, [⟨"a".toList, "circle".toList, attrsOf [("id", "a"), ("r", "2")]⟩], ps, qs, y0, y1, y2, k1, k2, k3, x, k4⟩

/-! ### Where it fails -/

/-- The point an operation leads to. -/
def endPt : Op → Option Pt
  | .moveTo p => some p
  | .lineTo p => some p
  | .quadTo _ p => some p
  | .cubicTo _ _ p => some p
  | .close => none

/-- A definition with an arc. -/
def arcPre : List Token := [.start "svg".toList []] ++ elem "defs" [] (elem "path" [("id", "a"), ("d", "M0 0A5 5 0 0 1 10 0")])

/-- C44 fails for arcs: with an offset of 20 the path starts at (20, 0) but the arc still ends at (10, 0), as without an offset. -/
theorem C44_arc_false :
    (pathsOf .strict (arcPre ++ [.start "use".toList (attrsOf [("href", "#a"), ("x", "20")])])).map (·.map fun p => (p.head?, p.getLast?.map endPt)) =
      some [(some (.moveTo ⟨1280, 0⟩), some (some ⟨640, 0⟩))] ∧
    (pathsOf .strict (arcPre ++ [.start "use".toList (attrsOf [("href", "#a")])])).map (·.map fun p => (p.head?, p.getLast?.map endPt)) =
      some [(some (.moveTo ⟨0, 0⟩), some (some ⟨640, 0⟩))] := by decide +kernel

/-- A line from 0 to 4, and a group of a line from 0 to 1, that line moved by 3, and a line from 0 to 2. -/
def nestPre : List Token :=
  [.start "svg".toList []] ++ elem "defs" [] (elem "line" [("id", "a"), ("x2", "4")] ++
    elem "g" [("id", "b")] (elem "line" [("x2", "1")] ++ elem "use" [("href", "#a"), ("x", "3")] ++ elem "line" [("x2", "2")]))

/-- C44 fails for nested uses: the offsets do not add up, and the outer one is lost after the inner `use`. With an outer offset of 20
only the first line is moved by 20; the second one is moved by 3 only, and the third one not at all. -/
theorem C44_nested_false :
    pathsOf .strict (nestPre ++ [.start "use".toList (attrsOf [("href", "#b"), ("x", "20")])]) =
      some [[.moveTo ⟨1280, 0⟩, .lineTo ⟨1344, 0⟩, .moveTo ⟨192, 0⟩, .lineTo ⟨448, 0⟩, .moveTo ⟨0, 0⟩, .lineTo ⟨128, 0⟩]] := by decide +kernel

/-- A group of a line and a path. -/
def pathPre : List Token :=
  [.start "svg".toList []] ++ elem "defs" [] (elem "g" [("id", "a")] (elem "line" [("x2", "4")] ++ elem "path" [("d", "M1 1H2")]))

/-- C44 fails for a path that follows another shape: the shape before it is not drawn. In the place of the `use`, both are. -/
theorem C44_path_false :
    pathsOf .strict (pathPre ++ [.start "use".toList (attrsOf [("href", "#a"), ("x", "20")])]) =
      some [[.moveTo ⟨1344, 64⟩, .lineTo ⟨1408, 64⟩]] ∧
    (pathsOf .strict (pathPre ++ content ((definitionOf "a".toList pathPre).getD []))).map (·.length) = some 2 := by decide +kernel

/-- A document before and after a `use`. -/
def goneDoc : List Token := nestPre ++ elem "use" [("href", "#b"), ("x", "20")]

theorem gone_viewBox : (readTokens 3 goneDoc (initCursor (F := F64) .strict)).2.svg.viewBox =
    (readTokens 3 nestPre (initCursor (F := F64) .strict)).2.svg.viewBox := by
  have h : (fun b : Bounds F64 => (b.x, b.y, b.w, b.h)) (readTokens 3 goneDoc (initCursor (F := F64) .strict)).2.svg.viewBox =
    (fun b : Bounds F64 => (b.x, b.y, b.w, b.h)) (readTokens 3 nestPre (initCursor (F := F64) .strict)).2.svg.viewBox := by decide +kernel
  revert h
  generalize (readTokens 3 goneDoc (initCursor (F := F64) .strict)).2.svg.viewBox = a
  generalize (readTokens 3 nestPre (initCursor (F := F64) .strict)).2.svg.viewBox = b
  intro h
  cases a; cases b
  simpa using h

/-- `C44_gone` applies: an arc drawn after the `use` and without it. -/
theorem gone_holds : ∃ (t1 t2 s1 s2 : Svg F64) (ps1 ps2 : List (SvgPath F64)),
    Yields 3 .strict (goneDoc ++ [.start "path".toList (attrsOf [("d", "M1 0A5 5 0 0 1 10 0")])]) t1 ∧
    Yields 3 .strict (nestPre ++ [.start "path".toList (attrsOf [("d", "M1 0A5 5 0 0 1 10 0")])]) t2 ∧
    t1.svgPaths = s1.svgPaths ++ ps1 ∧ t2.svgPaths = s2.svgPaths ++ ps2 ∧ ps1.map SvgPath.path = ps2.map SvgPath.path := by
  have y1 := yields_of (fuel := 3) (m := .strict) (ts := goneDoc) (by decide +kernel)
  have y2 := yields_of (fuel := 3) (m := .strict) (ts := nestPre) (by decide +kernel)
  have z1 := yields_of (fuel := 3) (m := .strict) (ts := goneDoc ++ [.start "path".toList (attrsOf [("d", "M1 0A5 5 0 0 1 10 0")])]) (by decide +kernel)
  have z2 := yields_of (fuel := 3) (m := .strict) (ts := nestPre ++ [.start "path".toList (attrsOf [("d", "M1 0A5 5 0 0 1 10 0")])]) (by decide +kernel)
  obtain ⟨ps1, ps2, k⟩ := C44_gone (ch1 := [⟨"svg".toList, []⟩]) (ch2 := [⟨"svg".toList, []⟩])
    ⟨by decide +kernel, by decide +kernel, .inr (by decide +kernel)⟩ ⟨by decide +kernel, by decide +kernel, .inr (by decide +kernel)⟩
    (by decide +kernel) (by decide +kernel) (by decide +kernel) (by decide +kernel) (by decide +kernel) (by decide +kernel)
    (by decide +kernel) (by decide +kernel) y1 y2 gone_viewBox z1 z2
  exact ⟨_, _, _, _, ps1, ps2, z1, z2, k⟩

end Examples

end GoSvg
