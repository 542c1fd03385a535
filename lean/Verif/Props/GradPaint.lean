import Verif.Spec.GradPaint
import Verif.Props.Strokes
import Verif.Props.Gradients

/-! C66: the paints, gradients included, that are handed to the backends. -/

set_option linter.unusedSectionVars false

namespace GoSvg

open Spec

variable {F : Type} [GoFloat F] [GoEnv]

theorem getColor_flat (p : Pattern F) : getColor (some p) = flat p := by
  rcases p with c | g
  · rfl
  · unfold getColor flat
    dsimp only
    rw [List.head?_filterMap]
    cases g.stops.findSome? fun s => s.stopColor <;> rfl

theorem patternColor_flat (p : Pattern F) (o : F) : Draw2d.patternColor p o = toColor (flat p) o := by
  rcases p with c | g
  · rfl
  · exact congrArg (toColor · o) (getColor_flat _)

/-- C66 for draw2d: gradients are painted in one colour, that of the first stop. -/
theorem C66_draw2d_partial (s : Svg F) (opts : List (RenderOption F)) (b : Brush Color F) :
    painted d2Step b (Draw2d.draw s opts) = s.svgPaths.flatMap fun p =>
      paintings (fun c o => some (toColor (flat c) o)) (fun c o => some (toColor (flat c) o))
        (fun w => w *. (p.style.transform.mult (options s.viewBox opts).target).lineWidthScale) p.style (options s.viewBox opts).opacity := by
  refine painted_flatMap (fun p hp b => ?_) b
  unfold Draw2d.drawTransformed paintings
  simp only [List.append_assoc, patternColor_flat]
  generalize hq : p.path.flatMap (fun op => Draw2d.drawTo op (p.style.transform.mult (options s.viewBox opts).target)) = q
  have quiet := painted_quiet (step := d2Step) (hq ▸ d2_quiet (p.style.transform.mult (options s.viewBox opts).target) p.path)
  rcases hfc : p.style.fillerColor with _ | c
  · rcases hlc : p.style.linerColor with _ | c'
    · rw [List.nil_append, List.nil_append, List.append_nil, (quiet b).1]; rfl
    · rw [List.nil_append, painted_append, painted_append, (quiet _).1, (quiet _).2]; rfl
  · rcases hlc : p.style.linerColor with _ | c'
    · rw [List.nil_append, painted_append, painted_append, (quiet _).1, (quiet _).2]; rfl
    · rw [painted_append, painted_append, painted_append, (quiet _).1, (quiet _).2]; rfl

/-- The outline of `p`, as rasterx gets it on the filler (`true`) or the stroker (`false`): the calls since the last `clear`. -/
structure Outline (t : Bool) (m : Matrix2D F) (p : SvgPath F) (tr : RxTrace F) : Prop where
  clear : tr.head? = some (t, .clear)
  own : ∀ c ∈ tr, c.1 = t
  pens : tr.flatMap (fun c => rxEvents c.2) = p.path.map (penOf m.tFixed)

theorem rx_paint [RxEnv F] (tr : RxTrace F) (c : Pattern F) (o : F) (hd : ∀ g, c = .gradient g → g.direction ≠ none) :
    some (Rx.paint tr c o) = rxPaintOf (RxEnv.extent tr) c o := by
  rcases c with c | g
  · rfl
  · have hd := hd g rfl
    unfold Rx.paint rxPaintOf rxGradient
    dsimp only
    unfold Rx.toRasterxGradient applyPathExtent
    rcases hg : g.direction with _ | d | d
    · exact absurd hg hd
    · cases hu : g.units <;> simp [hg, hu, boxOf, px]
    · cases hu : g.units <;> simp [hg, hu, boxOf, px]

theorem outline (t : Bool) (m : Matrix2D F) (p : SvgPath F) (c : RxCall F) (hc : rxEvents c = []) :
    Outline t m p (([RxCall.clear, c] ++ p.path.flatMap (fun op => Rx.drawTo op m) ++ [RxCall.stop false]).map fun x => (t, x)) := by
  refine ⟨rfl, fun c hc => ?_, ?_⟩
  · obtain ⟨_, -, rfl⟩ := List.mem_map.1 hc; rfl
  · rw [List.flatMap_map]
    have e := flatMap_map_eq (δ := Unit) p.path (fun op => Rx.drawTo op m) rxEvents (fun op => [penOf m.tFixed op]) (rx_op m)
    simp only [List.flatMap_append, List.flatMap_cons, List.flatMap_nil, hc, e, List.append_nil, List.flatMap_singleton']
    simp [rxEvents, List.map_eq_flatMap]

/-- C66 for rasterx: every fill and stroke is made with the paint of its style; a gradient keeps its points, stops, matrix, spread method and
units, and is bounded by the outline that is painted (objectBoundingBox) or by its own bounds (userSpaceOnUse). Missing: see
`C66_rasterx_focal_false` and `C66_target_false`. -/
theorem C66_rasterx_partial [RxEnv F] (s : Svg F) (opts : List (RenderOption F))
    (hd : ∀ p ∈ s.svgPaths, ∀ g, p.style.fillerColor = some (.gradient g) ∨ p.style.linerColor = some (.gradient g) → g.direction ≠ none) :
    ∃ fills lines : SvgPath F → RxTrace F,
      (∀ p, Outline true (p.style.transform.mult (options s.viewBox opts).target) p (fills p) ∧
        Outline false (p.style.transform.mult (options s.viewBox opts).target) p (lines p)) ∧
      ∀ b, painted rxStep b (Rx.draw s opts) = s.svgPaths.flatMap fun p =>
        paintings (rxPaintOf (RxEnv.extent (fills p))) (rxPaintOf (RxEnv.extent (lines p)))
          (fun w => GoFloat.toI32 (w *. num 64 *. (p.style.transform.mult (options s.viewBox opts).target).lineWidthScale)) p.style
          (options s.viewBox opts).opacity := by
  refine ⟨_, _, fun p => ⟨outline true _ p (.setWinding p.style.useNonZeroWinding) rfl, outline false _ p (.setStroke
    (GoFloat.toI32 (p.style.lineWidth *. num 64 *. (p.style.transform.mult (options s.viewBox opts).target).lineWidthScale)) p.style.join.miterLimit
    (Rx.toLineCap p.style.join.leadLineCap (Rx.toLineCap p.style.join.trailLineCap .butt)) (Rx.toLineCap p.style.join.trailLineCap .butt)
    (Rx.toLineGap p.style.join.lineGap) p.style.join.lineJoin) rfl⟩, fun b => ?_⟩
  refine painted_flatMap (fun p hp b => ?_) b
  unfold Rx.drawTransformed paintings
  rw [painted_append]
  have quiet := fun t => painted_quiet (rx_quiet t (p.style.transform.mult (options s.viewBox opts).target) p.path)
  congr 1
  · unfold Rx.fillCalls
    rcases hfc : p.style.fillerColor with _ | c
    · rfl
    · simp only [Option.toList, List.map_cons, List.map_nil]
      rw [← rx_paint _ _ _ fun g h => hd p hp g (.inl (h ▸ hfc))]
      simp only [List.map_append, List.append_assoc]
      rw [painted_append, painted_append, (quiet _ _).1, (quiet _ _).2]
      rfl
  · unfold Rx.strokeCalls
    rcases hlc : p.style.linerColor with _ | c'
    · rfl
    · simp only [Option.toList, List.map_cons, List.map_nil]
      rw [← rx_paint _ _ _ fun g h => hd p hp g (.inr (h ▸ hlc))]
      simp only [List.map_append, List.append_assoc]
      rw [painted_append, painted_append, (quiet _ _).1, (quiet _ _).2]
      rfl

theorem toStops_eq (o : F) : ∀ stops : List (GradStop F), GG.toStops o stops = ggStops stops o
  | [] => rfl
  | st :: stops => by
    unfold GG.toStops
    rw [toStops_eq o stops]
    unfold ggStops
    rw [List.mapM_cons]
    cases st.stopColor with
    | none => rfl
    | some c => cases List.mapM (fun st => st.stopColor.map fun c => (st.offset, toColor c (st.opacity *. o))) stops <;> rfl

/-- What gg paints: the fill is made in the colour of the stroke if there is one. -/
def ggPaintings (st : PathStyle F) (m : Matrix2D F) (opacity : F) : List (Spec.Painted (GGPattern F) F) :=
  paintings (fun c o => match st.linerColor with
      | none => ggPatternOf c o
      | some c' => some (.solid (toColor (flat c') (st.lineOpacity *. opacity))))
    (fun c o => some (.solid (toColor (flat c) o))) (fun w => w *. m.lineWidthScale) st opacity

theorem strokeSetup_flat (st : PathStyle F) (m : Matrix2D F) (o : F) : GG.strokeSetup st m o = match st.linerColor with
    | none => []
    | some p => [.setLineCap (GG.toLineCap st.join.trailLineCap), .setLineJoin (GG.toLineJoin st.join.lineJoin),
        .setColor (toColor (flat p) (st.lineOpacity *. o)), .setLineWidth (st.lineWidth *. m.lineWidthScale), .setDash st.dash.dash,
        .setDashOffset st.dash.dashOffset] := by
  unfold GG.strokeSetup
  rcases st.linerColor with _ | c | g
  · rfl
  · rfl
  · dsimp only
    rw [getColor_flat]

/-- C66 for the calls gg gets for one path, also inside masks. -/
theorem C66_gg_path {s : Svg F} {fuel : Nat} {p : SvgPath F} {m : Matrix2D F} {o : F} {cs : List (GGCall F)}
    (h : GG.drawTransformed s fuel p m o = .ok cs) (b : Brush (GGPattern F) F) : painted ggStep b cs = ggPaintings p.style m o := by
  obtain ⟨clip, fs, hf, rfl, hc⟩ := gg_transformed h
  have qc : ∀ b, painted ggStep b clip = [] ∧ brushAfter ggStep b clip = b := by
    refine painted_quiet fun c hc' b => ?_
    rcases hc with ⟨rfl, -⟩ | ⟨_, _, content, -, -, -, rfl⟩
    · rw [List.mem_singleton.1 hc']; rfl
    · rw [List.mem_singleton.1 hc']; rfl
  have quiet := painted_quiet (gg_quiet m p.path)
  have setup : fs = [] ∧ p.style.fillerColor = none ∨ ∃ c pt, p.style.fillerColor = some c ∧ ggPatternOf c (p.style.fillOpacity *. o) = some pt ∧
      fs = [.setFillRule p.style.useNonZeroWinding, .setFillStyle pt] := by
    unfold GG.fillSetup at hf
    split at hf
    · rename_i hn; cases hf; exact .inl ⟨rfl, hn⟩
    · rename_i c hn; cases hf; exact .inr ⟨_, _, hn, rfl, rfl⟩
    · rename_i g hn
      obtain ⟨pt, hp, rfl⟩ := Option.map_eq_some_iff.1 hf
      refine .inr ⟨_, pt, hn, ?_, rfl⟩
      rw [← hp]
      unfold ggPatternOf GG.toGradient
      dsimp only
      rw [toStops_eq]
      rcases ggStops g.stops (p.style.fillOpacity *. o) with _ | stops
      · rcases g.direction with _ | d | d <;> rfl
      · rcases g.direction with _ | d | d <;> rfl
  simp only [List.append_assoc]
  rw [painted_append, (qc _).1, (qc _).2]
  rw [strokeSetup_flat]
  unfold ggPaintings paintings GG.finish
  rcases setup with ⟨rfl, hn⟩ | ⟨c, pt, hn, hpt, rfl⟩
  · rcases hlc : p.style.linerColor with _ | c'
    · simp only [hn, List.nil_append, List.append_nil, (quiet _).1, Option.toList, List.map_nil]
    · dsimp only
      rw [hn, List.nil_append, List.nil_append, painted_append, painted_append, (quiet _).1, (quiet _).2]; rfl
  · rcases hlc : p.style.linerColor with _ | c'
    · simp only [hn, List.nil_append, List.append_nil, Option.toList, List.map_nil, List.map_cons, hpt]
      rw [painted_append, painted_append, (quiet _).1, (quiet _).2]; rfl
    · dsimp only
      rw [hn, painted_append, painted_append, painted_append, (quiet _).1, (quiet _).2]; rfl

/-- C66 for gg, whenever drawing ends without a panic: a fill is made with the points and the stops of its gradient if there is no stroke. -/
theorem C66_gg_partial {s : Svg F} {fuel : Nat} {opts : List (RenderOption F)} {cs : List (GGCall F)}
    (hd : GG.draw s fuel opts = .ok cs) (b : Brush (GGPattern F) F) : painted ggStep b cs = s.svgPaths.flatMap fun p =>
      ggPaintings p.style (p.style.transform.mult (options s.viewBox opts).target) (options s.viewBox opts).opacity :=
  gg_all_painted _ (fun _ _ _ h b => C66_gg_path h b) _ hd b

theorem fillSetup_same {p p' : SvgPath F} (h : SamePath p p') (o : F) : GG.fillSetup p.style o = GG.fillSetup p'.style o := by
  have hs := h.style
  simp only [PathStyle.mk.injEq] at hs
  unfold GG.fillSetup
  rw [show p.style.fillOpacity = p'.style.fillOpacity by tauto, show p.style.useNonZeroWinding = p'.style.useNonZeroWinding by tauto]
  rcases h.fill with e | ⟨g, g', e, e', hd, hst⟩
  · rw [e]
  · rw [e, e']
    dsimp only
    unfold GG.toGradient
    rw [hd, hst]

theorem drawMasked_same {p p' : SvgPath F} (h : SamePath p p') (m : Matrix2D F) (o : F) (clip : List (GGCall F)) :
    GG.drawMasked p m o clip = GG.drawMasked p' m o clip := by
  have hs := h.style
  simp only [PathStyle.mk.injEq] at hs
  have e1 : GG.strokeSetup p.style m o = GG.strokeSetup p'.style m o := by
    rw [strokeSetup_flat, strokeSetup_flat, show p.style.join = p'.style.join by tauto, show p.style.lineOpacity = p'.style.lineOpacity by tauto,
      show p.style.lineWidth = p'.style.lineWidth by tauto, show p.style.dash = p'.style.dash by tauto]
    rcases h.line with e | ⟨g, g', e, e', hd, hst⟩
    · rw [e]
    · rw [e, e']
      dsimp only [flat]
      rw [hst]
  have e2 : GG.finish p.style = GG.finish p'.style := by
    unfold GG.finish
    rcases h.fill with e | ⟨g, g', e, e', -⟩ <;> rcases h.line with e1 | ⟨g, g', e1, e1', -⟩
    · rw [e, e1]
    · rw [e, e1, e1']; cases p'.style.fillerColor <;> rfl
    · rw [e, e', e1]; cases p'.style.linerColor <;> rfl
    · rw [e, e', e1, e1']
  unfold GG.drawMasked
  rw [fillSetup_same h, e1, e2, h.path]

/-- The calls for a path depend on the picture only through its masks. -/
theorem drawTransformed_masks {s s' : Svg F} (hm : s.svgMasks = s'.svgMasks) (ha : s.arrays = s'.arrays) : ∀ (fuel : Nat) (p : SvgPath F) (m : Matrix2D F) (o : F),
    GG.drawTransformed s fuel p m o = GG.drawTransformed s' fuel p m o
  | 0, p, m, o => by unfold GG.drawTransformed; rw [ha]
  | fuel + 1, p, m, o => by
    unfold GG.drawTransformed
    rw [ha, hm]
    have e : (fun q => GG.drawTransformed s fuel q m (num 1)) = fun q => GG.drawTransformed s' fuel q m (num 1) :=
      funext fun q => drawTransformed_masks hm ha fuel q m _
    simp only [e]

/-- C66 is false for gg: no drawing depends on the units, the bounds, the gradientTransform or the spread method of a gradient. -/
theorem C66_gg_false {s s' : Svg F} (hv : s.viewBox = s'.viewBox) (hm : s.svgMasks = s'.svgMasks) (ha : s.arrays = s'.arrays)
    (hp : List.Forall₂ SamePath s.svgPaths s'.svgPaths) (fuel : Nat) (opts : List (RenderOption F)) : GG.draw s fuel opts = GG.draw s' fuel opts := by
  unfold GG.draw
  rw [hv]
  dsimp only
  generalize s.svgPaths = l, s'.svgPaths = l' at hp
  induction hp with
  | nil => rfl
  | @cons p p' ps ps' h hps ih =>
    have e : ∀ m o, GG.drawTransformed s fuel p m o = GG.drawTransformed s' fuel p' m o := by
      intro m o
      rw [drawTransformed_masks hm ha]
      have hs := h.style
      simp only [PathStyle.mk.injEq] at hs
      unfold GG.drawTransformed
      rw [show p.style.masks = p'.style.masks by tauto]
      simp only [drawMasked_same h]
    have hs := h.style
    simp only [PathStyle.mk.injEq] at hs
    rw [GG.drawAll, GG.drawAll, e, show p.style.transform = p'.style.transform by tauto, ih]

/-- The paints of the fills and strokes. -/
def paintsOf {P W : Type} : List (Spec.Painted P W) → List (Option P) := List.map fun
  | .fill p _ => p
  | .stroke p _ => p

/-- C66 is false for drawings of another size: gg is given the same paints whatever the target and the transform of the paths. -/
theorem C66_gg_target_false {s : Svg F} {fuel : Nat} {opts opts' : List (RenderOption F)} {cs cs' : List (GGCall F)}
    (hd : GG.draw s fuel opts = .ok cs) (hd' : GG.draw s fuel opts' = .ok cs')
    (ho : (options s.viewBox opts).opacity = (options s.viewBox opts').opacity) (b : Brush (GGPattern F) F) :
    paintsOf (painted ggStep b cs) = paintsOf (painted ggStep b cs') := by
  rw [C66_gg_partial hd, C66_gg_partial hd', ho]
  unfold paintsOf
  rw [List.map_flatMap, List.map_flatMap]
  congr 1
  funext p
  unfold ggPaintings paintings
  rcases p.style.fillerColor with _ | c <;> rcases p.style.linerColor with _ | c' <;> rfl

/-- The same for gradients in userSpaceOnUse units in rasterx. -/
theorem C66_rasterx_target_false [RxEnv F] (s : Svg F) (opts opts' : List (RenderOption F))
    (hd : ∀ p ∈ s.svgPaths, ∀ g, p.style.fillerColor = some (.gradient g) ∨ p.style.linerColor = some (.gradient g) →
      g.direction ≠ none ∧ g.units = .userSpaceOnUse)
    (ho : (options s.viewBox opts).opacity = (options s.viewBox opts').opacity) (b : Brush (RxPaint F) Int) :
    paintsOf (painted rxStep b (Rx.draw s opts)) = paintsOf (painted rxStep b (Rx.draw s opts')) := by
  obtain ⟨f, l, -, h⟩ := C66_rasterx_partial s opts fun p hp g hg => (hd p hp g hg).1
  obtain ⟨f', l', -, h'⟩ := C66_rasterx_partial s opts' fun p hp g hg => (hd p hp g hg).1
  rw [h, h', ho]
  unfold paintsOf
  rw [List.map_flatMap, List.map_flatMap]
  refine List.flatMap_congr fun p hp => ?_
  have e : ∀ c o t t', (p.style.fillerColor = some c ∨ p.style.linerColor = some c) → rxPaintOf t c o = rxPaintOf t' c o := by
    intro c o t t' hc
    rcases c with c | g
    · rfl
    · unfold rxPaintOf rxGradient
      simp [(hd p hp g hc).2]
  unfold paintings
  rcases hfc : p.style.fillerColor with _ | c <;> rcases hlc : p.style.linerColor with _ | c'
  · rfl
  · simpa using e c' _ _ _ (.inr hlc)
  · simpa using e c _ _ _ (.inl hfc)
  · simpa using ⟨e c _ _ _ (.inl hfc), e c' _ _ _ (.inr hlc)⟩

/-- C66 is false for the radius of the focal circle: the paint rasterx is given does not depend on it. -/
theorem C66_rasterx_focal_false [RxEnv F] (tr : RxTrace F) (g : Gradient F) (cx cy fx fy r fr fr' o : F) :
    Rx.paint tr (.gradient { g with direction := some (.radial cx cy fx fy r fr) }) o =
      Rx.paint tr (.gradient { g with direction := some (.radial cx cy fx fy r fr') }) o := by
  unfold Rx.paint Rx.toRasterxGradient applyPathExtent
  dsimp only
  cases g.units <;> rfl

/-! ### Documents -/

/-- The gradients of a document have directions, so `C66_rasterx_partial` applies to all documents. -/
theorem C66_documents {fuel : Nat} {m : ErrorMode} {tokens : List Token} {fin : StreamEnd} {s : Svg F} {err : Option Err} {log : List Msg}
    (h : parse fuel m tokens fin = .done (some s) err log) (p : SvgPath F) (hp : p ∈ s.svgPaths) (g : Gradient F)
    (hg : p.style.fillerColor = some (.gradient g) ∨ p.style.linerColor = some (.gradient g)) : g.direction ≠ none := by
  have key : ∀ K : PaintKind, K.of p.style = some (.gradient g) → g.direction ≠ none := by
    intro K hK
    have := (C39_complete h).1 p hp K
    rw [hK] at this
    obtain ⟨⟨d, hd⟩, -⟩ := this
    exact hd ▸ nofun
  rcases hg with hg | hg
  · exact key .fill hg
  · exact key .stroke hg

theorem ggStops_some (o : F) : ∀ stops : List (GradStop F), (∀ s ∈ stops, ∃ c, s.stopColor = some c) → ∃ l, GG.toStops o stops = some l
  | [], _ => ⟨_, rfl⟩
  | st :: stops, h => by
    obtain ⟨c, hc⟩ := h st List.mem_cons_self
    obtain ⟨l, hl⟩ := ggStops_some o stops fun s hs => h s (List.mem_cons_of_mem _ hs)
    unfold GG.toStops
    rw [hc, hl]
    exact ⟨_, rfl⟩

theorem drawMasked_no_panic {p : SvgPath F} (h : NoGaps p.style.fillerColor) (m : Matrix2D F) (o : F) (clip : List (GGCall F)) :
    GG.drawMasked p m o clip ≠ .panic := by
  unfold GG.drawMasked
  have : GG.fillSetup p.style o ≠ none := by
    unfold GG.fillSetup
    rcases hf : p.style.fillerColor with _ | c | g
    · exact nofun
    · exact nofun
    · rw [hf] at h
      obtain ⟨⟨d, hd⟩, hst⟩ := h
      obtain ⟨l, hl⟩ := ggStops_some (p.style.fillOpacity *. o) g.stops hst
      dsimp only
      unfold GG.toGradient
      rw [hd, hl]
      cases d <;> exact nofun
  split
  · exact absurd ‹_› this
  · exact nofun

theorem drawAll_no_panic {f : SvgPath F → GG.Drawn (List (GGCall F))} : ∀ {ps : List (SvgPath F)}, (∀ p ∈ ps, f p ≠ .panic) → GG.drawAll f ps ≠ .panic
  | [], _ => nofun
  | p :: ps, h => by
    have ih := drawAll_no_panic (ps := ps) fun q hq => h q (List.mem_cons_of_mem _ hq)
    rw [GG.drawAll]
    split
    · split
      · exact nofun
      · exact absurd ‹_› ih
      · exact nofun
    · exact absurd ‹_› (h p List.mem_cons_self)
    · exact nofun

theorem drawTransformed_no_panic {s : Svg F} (hm : ∀ id mk, s.svgMasks.find id = some mk → ∀ p ∈ mk.svgPaths, NoGaps p.style.fillerColor) :
    ∀ (fuel : Nat) (p : SvgPath F) (m : Matrix2D F) (o : F), NoGaps p.style.fillerColor → GG.drawTransformed s fuel p m o ≠ .panic
  | 0, p, m, o, h => by
    unfold GG.drawTransformed
    split
    · exact drawMasked_no_panic h m o _
    · exact nofun
  | fuel + 1, p, m, o, h => by
    unfold GG.drawTransformed
    split
    · exact drawMasked_no_panic h m o _
    · dsimp only
      split
      · exact drawMasked_no_panic h m o _
      · rename_i mask hf
        split
        · exact drawMasked_no_panic h m o _
        · exact absurd ‹_› (drawAll_no_panic fun q hq => drawTransformed_no_panic hm fuel q m _ (hm _ _ hf q hq))
        · exact nofun

/-- Drawing a document with gg does not panic, so that `C66_gg_partial` applies to all documents whose drawing ends. -/
theorem C66_gg_no_panic {fuel : Nat} {m : ErrorMode} {tokens : List Token} {fin : StreamEnd} {s : Svg F} {err : Option Err} {log : List Msg}
    (h : parse fuel m tokens fin = .done (some s) err log) (fuel' : Nat) (opts : List (RenderOption F)) : GG.draw s fuel' opts ≠ .panic := by
  obtain ⟨h1, h2⟩ := C39_complete h
  exact drawAll_no_panic fun p hp => drawTransformed_no_panic (fun id mk hf p hp => h2 id mk hf p hp .fill) _ _ _ _ (h1 p hp .fill)

end GoSvg

namespace GoSvg

open Spec

section Examples

attribute [local instance] asciiEnv
attribute [local instance] dummyLibm

/-- C66 is false for draw2d: a square with a gradient from red to blue is painted red. -/
theorem C66_draw2d_false : (svgOf (elem "linearGradient" [("id", "g")] (elem "stop" [("offset", "0"), ("stop-color", "red")] ++
        elem "stop" [("offset", "1"), ("stop-color", "blue")]) ++ elem "rect" [("width", "8"), ("height", "8"), ("fill", "url(#g)")])).map (fun s =>
      (s.svgPaths.map (fun p => match p.style.fillerColor with
        | some (.gradient g) => g.stops.map (·.stopColor)
        | _ => []), painted d2Step {} (Draw2d.draw s []))) =
    some ([[some ⟨255, 0, 0, 255⟩, some ⟨0, 0, 255, 255⟩]], [.fill (some ⟨255, 0, 0, 255⟩) true]) := by decide +kernel

/-- C66 in gg: the same square has both stops, each with its opacity, along the axis of the gradient. -/
theorem C66_example : (svgOf (elem "linearGradient" [("id", "g"), ("gradientUnits", "userSpaceOnUse"), ("x1", "1"), ("y1", "2"), ("x2", "3"), ("y2", "4")]
        (elem "stop" [("offset", "0"), ("stop-color", "red")] ++
        elem "stop" [("offset", "1"), ("stop-color", "blue"), ("stop-opacity", "0.5")]) ++
        elem "rect" [("width", "8"), ("height", "8"), ("fill", "url(#g)")])).map (fun s => match GG.draw s 0 [] with
      | .ok cs => painted ggStep {} cs
      | _ => []) =
    some [.fill (some (.linear (num 1) (num 2) (num 3) (num 4) [(num 0, ⟨255, 0, 0, 255⟩), (num 1, ⟨0, 0, 255, 127⟩)])) true] := by decide +kernel

/-- C66 is false for radial gradients in gg: the circle of the first stop has the radius `r` of the gradient, that of the last stop the
radius of the focal circle. -/
theorem C66_gg_radial_false : (svgOf (elem "radialGradient" [("id", "g"), ("gradientUnits", "userSpaceOnUse"), ("cx", "4"), ("cy", "4"), ("r", "4")]
        (elem "stop" [("offset", "0"), ("stop-color", "red")] ++
        elem "stop" [("offset", "1"), ("stop-color", "blue")]) ++
        elem "rect" [("width", "8"), ("height", "8"), ("fill", "url(#g)")])).map (fun s => match GG.draw s 0 [] with
      | .ok cs => painted ggStep {} cs
      | _ => []) =
    some [.fill (some (.radial (num 4) (num 4) (num 4) (num 4) (num 4) (num 0) [(num 0, ⟨255, 0, 0, 255⟩), (num 1, ⟨0, 0, 255, 255⟩)])) true] := by
  decide +kernel

end Examples

end GoSvg
