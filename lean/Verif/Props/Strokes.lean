import Verif.Spec.Strokes
import Verif.Props.Render

/-! C65: the line settings with which strokes are made. -/

set_option linter.unusedSectionVars false

namespace GoSvg

open Spec

variable {F : Type} [GoFloat F] [GoEnv]

section Emitted

variable {S C E : Type} {step : S → C → S × List E}

def stateAfter (step : S → C → S × List E) (b : S) (cs : List C) : S := cs.foldl (fun b c => (step b c).1) b

theorem emitted_append (b : S) (as bs : List C) : emitted step b (as ++ bs) = emitted step b as ++ emitted step (stateAfter step b as) bs := by
  induction as generalizing b with
  | nil => rfl
  | cons a as ih => rw [List.cons_append, emitted, emitted, ih, List.append_assoc]; rfl

theorem emitted_quiet {cs : List C} (h : ∀ c ∈ cs, ∀ b, step b c = (b, [])) (b : S) : emitted step b cs = [] ∧ stateAfter step b cs = b := by
  induction cs with
  | nil => exact ⟨rfl, rfl⟩
  | cons c cs ih =>
    have hc := h c List.mem_cons_self b
    have ih := ih fun c hc => h c (List.mem_cons_of_mem _ hc)
    unfold emitted stateAfter
    rw [List.foldl_cons, hc]
    exact ih

theorem emitted_flatMap {α : Type} {f : α → List C} {g : α → List E} {l : List α} (h : ∀ a ∈ l, ∀ b, emitted step b (f a) = g a) (b : S) :
    emitted step b (l.flatMap f) = l.flatMap g := by
  induction l generalizing b with
  | nil => rfl
  | cons a l ih =>
    rw [List.flatMap_cons, emitted_append, h a List.mem_cons_self, ih (fun a ha => h a (List.mem_cons_of_mem _ ha)), List.flatMap_cons]

theorem filter_map_flatMap {α β : Type} (q : α → Bool) (k : α → β) (l : List α) :
    (l.filter q).map k = l.flatMap fun a => if q a then [k a] else [] := by
  induction l with
  | nil => rfl
  | cons a l ih =>
    rw [List.flatMap_cons, ← ih, List.filter_cons]
    split <;> rfl

end Emitted

theorem gg_all_emitted {S E : Type} {step : S → GGCall F → S × List E} {f : SvgPath F → GG.Drawn (List (GGCall F))} {k : SvgPath F → List E} :
    ∀ (ps : List (SvgPath F)), (∀ p ∈ ps, ∀ cs, f p = .ok cs → ∀ b, emitted step b cs = k p) → ∀ cs, GG.drawAll f ps = .ok cs →
      ∀ b, emitted step b cs = ps.flatMap k
  | [], _, cs, h, b => by rw [GG.drawAll, GG.Drawn.ok.injEq] at h; subst h; rfl
  | p :: ps, hf, cs, h, b => by
    rw [GG.drawAll] at h
    split at h
    · rename_i c1 h1
      split at h
      · rename_i c2 h2
        rw [GG.Drawn.ok.injEq] at h
        subst h
        rw [emitted_append, hf p List.mem_cons_self c1 h1, gg_all_emitted ps (fun q hq => hf q (List.mem_cons_of_mem _ hq)) c2 h2,
          List.flatMap_cons]
      · exact nomatch h
      · exact nomatch h
    · exact nomatch h
    · exact nomatch h

/-- What is drawn for one path: the calls for the clip, the settings, the pen movements, the painting. -/
theorem gg_transformed {s : Svg F} {fuel : Nat} {p : SvgPath F} {m : Matrix2D F} {o : F} {cs : List (GGCall F)}
    (h : GG.drawTransformed s fuel p m o = .ok cs) : ∃ clip fs, GG.fillSetup p.style o = some fs ∧
      cs = clip ++ fs ++ GG.strokeSetup p.style m o ++ p.path.flatMap (fun op => GG.drawTo op m) ++ GG.finish p.style ∧
      ((clip = [.resetClip] ∧ maskOf s p = none) ∨ ∃ fuel' mask content, fuel = fuel' + 1 ∧ maskOf s p = some mask ∧
        GG.drawAll (fun q => GG.drawTransformed s fuel' q m (num 1)) mask.svgPaths = .ok content ∧ clip = [.setMask content]) := by
  have key : ∀ {clip : List (GGCall F)}, GG.drawMasked p m o clip = .ok cs → ∃ fs, GG.fillSetup p.style o = some fs ∧
      cs = clip ++ fs ++ GG.strokeSetup p.style m o ++ p.path.flatMap (fun op => GG.drawTo op m) ++ GG.finish p.style := by
    intro clip h
    unfold GG.drawMasked at h
    split at h
    · exact nomatch h
    · rename_i fs hf
      exact ⟨fs, hf, (GG.Drawn.ok.inj h).symm⟩
  unfold GG.drawTransformed at h
  split at h
  · rename_i hid
    obtain ⟨fs, h1, h2⟩ := key h
    exact ⟨_, fs, h1, h2, .inl ⟨rfl, by unfold maskOf; rw [hid]; rfl⟩⟩
  · rename_i id hid
    cases fuel with
    | zero => exact nomatch h
    | succ fuel =>
      dsimp only at h
      split at h
      · rename_i hm
        obtain ⟨fs, h1, h2⟩ := key h
        exact ⟨_, fs, h1, h2, .inl ⟨rfl, by unfold maskOf; rw [hid]; exact hm⟩⟩
      · rename_i mask hm
        split at h
        · rename_i content hc
          obtain ⟨fs, h1, h2⟩ := key h
          exact ⟨_, fs, h1, h2, .inr ⟨fuel, mask, content, rfl, by unfold maskOf; rw [hid]; exact hm, hc, rfl⟩⟩
        · exact nomatch h
        · exact nomatch h

/-- C65 for draw2d: each stroke is made with the cap, the join, the dashes and the dash offset of its style. -/
theorem C65_draw2d (s : Svg F) (opts : List (RenderOption F)) (b : Pen D2Cap D2Join F) :
    emitted d2PenStep b (Draw2d.draw s opts) = (stroked s).map fun p =>
      ⟨plainCap.lookup p.style.join.trailLineCap, d2Joins.lookup p.style.join.lineJoin, some p.style.dash.dash, some p.style.dash.dashOffset⟩ := by
  unfold stroked
  rw [filter_map_flatMap]
  refine emitted_flatMap (fun p _ b => ?_) b
  unfold Draw2d.drawTransformed
  dsimp only
  have quiet : ∀ (m : Matrix2D F) b, emitted d2PenStep b (p.path.flatMap fun op => Draw2d.drawTo op m) = [] ∧
      stateAfter d2PenStep b (p.path.flatMap fun op => Draw2d.drawTo op m) = b := by
    intro m
    refine emitted_quiet fun c hc b => ?_
    obtain ⟨op, -, h⟩ := List.mem_flatMap.1 hc
    clear hc
    revert c
    cases op <;> simp [Draw2d.drawTo, d2PenStep]
  have cap : plainCap.lookup p.style.join.trailLineCap = some (Draw2d.toLineCap p.style.join.trailLineCap) := by
    cases p.style.join.trailLineCap <;> rfl
  have join : d2Joins.lookup p.style.join.lineJoin = some (Draw2d.toLineJoin p.style.join.lineJoin) := by
    cases p.style.join.lineJoin <;> rfl
  rw [cap, join]
  simp only [List.append_assoc]
  rcases p.style.fillerColor with _ | c <;> rcases p.style.linerColor with _ | c'
  · dsimp only; rw [List.nil_append, List.nil_append, List.append_nil, (quiet _ b).1]; rfl
  · dsimp only; rw [List.nil_append, emitted_append, emitted_append, (quiet _ _).1, (quiet _ _).2]; rfl
  · dsimp only; rw [List.nil_append, emitted_append, emitted_append, (quiet _ _).1, (quiet _ _).2]; rfl
  · dsimp only; rw [emitted_append, emitted_append, emitted_append, (quiet _ _).1, (quiet _ _).2]; rfl

theorem ggPen_path (m : Matrix2D F) (path : Path) (b : Pen D2Cap GGJoin F) : emitted ggPenStep b (path.flatMap fun op => GG.drawTo op m) = [] ∧
    stateAfter ggPenStep b (path.flatMap fun op => GG.drawTo op m) = b := by
  refine emitted_quiet (fun c hc b => ?_) b
  obtain ⟨op, -, h⟩ := List.mem_flatMap.1 hc
  clear hc
  revert c
  cases op <;> simp [GG.drawTo, ggPenStep]

/-- C65 for gg, also inside masks: `cs` are the calls for one path. -/
theorem C65_gg_path {s : Svg F} {fuel : Nat} {p : SvgPath F} {m : Matrix2D F} {o : F} {cs : List (GGCall F)}
    (h : GG.drawTransformed s fuel p m o = .ok cs) (b : Pen D2Cap GGJoin F) : emitted ggPenStep b cs = if p.style.linerColor.isSome then
      [⟨plainCap.lookup p.style.join.trailLineCap, ggJoins.lookup p.style.join.lineJoin, some p.style.dash.dash, some p.style.dash.dashOffset⟩]
      else [] := by
  obtain ⟨clip, fs, hf, rfl, hc⟩ := gg_transformed h
  have cap : plainCap.lookup p.style.join.trailLineCap = some (GG.toLineCap p.style.join.trailLineCap) := by
    cases p.style.join.trailLineCap <;> rfl
  have join : ggJoins.lookup p.style.join.lineJoin = some (GG.toLineJoin p.style.join.lineJoin) := by
    cases p.style.join.lineJoin <;> rfl
  rw [cap, join]
  have qc : ∀ b, emitted ggPenStep b clip = [] ∧ stateAfter ggPenStep b clip = b := by
    refine emitted_quiet fun c hc' b => ?_
    rcases hc with ⟨rfl, -⟩ | ⟨_, _, content, -, -, -, rfl⟩
    · rw [List.mem_singleton.1 hc']; rfl
    · rw [List.mem_singleton.1 hc']; rfl
  have qf : ∀ b, emitted ggPenStep b fs = [] ∧ stateAfter ggPenStep b fs = b := by
    refine emitted_quiet fun c hc' b => ?_
    unfold GG.fillSetup at hf
    split at hf
    · cases hf; cases hc'
    · cases hf
      simp only [List.mem_cons, List.not_mem_nil, or_false] at hc'
      rcases hc' with rfl | rfl <;> rfl
    · obtain ⟨pt, -, rfl⟩ := Option.map_eq_some_iff.1 hf
      simp only [List.mem_cons, List.not_mem_nil, or_false] at hc'
      rcases hc' with rfl | rfl <;> rfl
  simp only [List.append_assoc]
  rw [emitted_append, (qc _).1, (qc _).2, emitted_append, (qf _).1, (qf _).2, emitted_append, emitted_append, (ggPen_path _ _ _).1, (ggPen_path _ _ _).2]
  unfold GG.strokeSetup GG.finish
  rcases p.style.fillerColor with _ | c <;> rcases p.style.linerColor with _ | c' <;> rfl

/-- C65 for gg, whenever drawing ends without a panic. `ggJoins` has bevels for miters: see `C65_gg_miter_false`. -/
theorem C65_gg_partial {s : Svg F} {fuel : Nat} {opts : List (RenderOption F)} {cs : List (GGCall F)} (h : GG.draw s fuel opts = .ok cs)
    (b : Pen D2Cap GGJoin F) : emitted ggPenStep b cs = (stroked s).map fun p =>
      ⟨plainCap.lookup p.style.join.trailLineCap, ggJoins.lookup p.style.join.lineJoin, some p.style.dash.dash, some p.style.dash.dashOffset⟩ := by
  unfold stroked
  rw [filter_map_flatMap]
  exact gg_all_emitted _ (fun p _ cs h b => C65_gg_path h b) _ h b

theorem rxPen_path (t : Bool) (m : Matrix2D F) (path : Path) (b : Option RxPen) :
    emitted rxPenStep b ((path.flatMap fun op => Rx.drawTo op m).map fun x => (t, x)) = [] ∧
    stateAfter rxPenStep b ((path.flatMap fun op => Rx.drawTo op m).map fun x => (t, x)) = b := by
  refine emitted_quiet (fun c hc b => ?_) b
  obtain ⟨c', hc', rfl⟩ := List.mem_map.1 hc
  obtain ⟨op, -, h⟩ := List.mem_flatMap.1 hc'
  clear hc hc'
  revert c'
  cases op <;> cases t <;> simp [Rx.drawTo, rxPenStep]

/-- C65 for rasterx, except for the dashes: each stroke is made with the miter limit, the two caps (the leading one being the trailing one
unless set), the gap and the join of its style. -/
theorem C65_rasterx_partial [RxEnv F] (s : Svg F) (opts : List (RenderOption F)) (b : Option RxPen) :
    emitted rxPenStep b (Rx.draw s opts) = (stroked s).map fun p => (do
      let trail ← rxCaps.lookup p.style.join.trailLineCap
      let lead ← rxCaps.lookup (if p.style.join.leadLineCap = .nilCap then p.style.join.trailLineCap else p.style.join.leadLineCap)
      let gap ← rxGaps.lookup p.style.join.lineGap
      some ⟨p.style.join.miterLimit, lead, trail, gap, p.style.join.lineJoin⟩) := by
  unfold stroked
  rw [filter_map_flatMap]
  refine emitted_flatMap (fun p _ b => ?_) b
  unfold Rx.drawTransformed
  rw [emitted_append]
  have hfill : ∀ m opt, emitted rxPenStep b (Rx.fillCalls p m opt) = [] := by
    intro m opt
    unfold Rx.fillCalls
    rcases p.style.fillerColor with _ | c
    · rfl
    · dsimp only
      simp only [List.map_append, List.append_assoc]
      rw [emitted_append, emitted_append, (rxPen_path _ _ _ _).1, (rxPen_path _ _ _ _).2]
      rfl
  rw [hfill, List.nil_append]
  generalize stateAfter _ _ _ = b'
  unfold Rx.strokeCalls
  rcases p.style.linerColor with _ | c'
  · rfl
  · dsimp only
    simp only [List.map_append, List.append_assoc]
    rw [emitted_append, emitted_append, (rxPen_path _ _ _ _).1, (rxPen_path _ _ _ _).2]
    cases p.style.join.trailLineCap <;> cases p.style.join.leadLineCap <;> cases p.style.join.lineGap <;> rfl

/-- The drawing with the dashes replaced. -/
def withDashes (d : SvgPath F → DashOptions F) (s : Svg F) : Svg F :=
  { s with svgPaths := s.svgPaths.map fun p => { p with style := { p.style with dash := d p } } }

/-- C65 is false for the dashes in rasterx: no drawing depends on them. -/
theorem C65_rasterx_dash_false [RxEnv F] (s : Svg F) (opts : List (RenderOption F)) (d : SvgPath F → DashOptions F) :
    Rx.draw (withDashes d s) opts = Rx.draw s opts := by
  unfold Rx.draw withDashes
  rw [List.flatMap_map]
  rfl

end GoSvg

namespace GoSvg

open Spec

section Examples

attribute [local instance] asciiEnv
attribute [local instance] dummyLibm

/-- C65 at work: three paths of which two have strokes. -/
theorem C65_example : (svgOf (elem "path" [("d", "M0 0 L8 0"), ("stroke", "red"), ("stroke-linecap", "round"), ("stroke-dasharray", "1 2"), ("stroke-dashoffset", "3")] ++
      elem "path" [("d", "M0 0 L8 0")] ++ elem "path" [("d", "M0 0 L8 0"), ("fill", "none"), ("stroke", "blue"), ("stroke-linejoin", "miter")])).map (fun s =>
      (s.svgPaths.length, emitted d2PenStep ⟨none, none, none, none⟩ (Draw2d.draw s []))) =
    some (3, [⟨some .round, some .bevel, some [num 1, num 2], some (num 3)⟩, ⟨some .butt, some .miter, some [], some (num 0)⟩]) := by decide +kernel

/-- In gg, a stroke with miter joins is made with bevel joins. -/
theorem C65_gg_miter_false : (svgOf (elem "path" [("d", "M0 0 L8 0 L8 8"), ("stroke", "red"), ("stroke-linejoin", "miter")])).map (fun s =>
      (s.svgPaths.map fun p => p.style.join.lineJoin, match GG.draw s 1 [] with
        | .ok cs => (emitted ggPenStep ⟨none, none, none, none⟩ cs).map (·.join)
        | _ => [])) =
    some ([.miter], [some .bevel]) := by decide +kernel

/-- The dashes are not scaled with the drawing, while the width of the line is: drawn at twice the size, a line of width 2 with dashes of
length 1 has width 4 and dashes of length 1. -/
theorem C65_dash_scale_false : (svgOf (elem "path" [("d", "M0 0 L8 0"), ("stroke", "red"), ("stroke-dasharray", "1")])).map (fun s =>
      ((emitted d2PenStep ⟨none, none, none, none⟩ (Draw2d.draw { s with viewBox := ⟨num 0, num 0, num 8, num 8⟩ } [.target (num 0) (num 0) (num 16) (num 16)])).map (·.dash),
        (painted d2Step {} (Draw2d.draw { s with viewBox := ⟨num 0, num 0, num 8, num 8⟩ } [.target (num 0) (num 0) (num 16) (num 16)])).filterMap fun
          | .stroke _ w => w
          | _ => none)) =
    some ([some [num 1]], [num 4]) := by decide +kernel

end Examples

end GoSvg
