import Verif.Spec.Clips
import Verif.Props.GradPaint

/-! C67: masks in the renderers. -/

set_option linter.unusedSectionVars false

namespace GoSvg

open Spec

variable {F : Type} [GoFloat F] [GoEnv]

/-- `clip` is right for the path `p` drawn with the matrix `m`: no clip if the path has no mask in the picture, and otherwise the content of
the mask, drawn with the matrix `m` and full opacity. The paths of the mask are in turn clipped by their masks. -/
inductive ClipFor (s : Svg F) (m : Matrix2D F) : SvgPath F → Option (List (GGCall F)) → Prop
  | free {p : SvgPath F} (h : maskOf s p = none) : ClipFor s m p none
  | mask {p : SvgPath F} {mk : SvgMask F} {content : List (GGCall F)} {clips : List (Option (List (GGCall F)))} (h : maskOf s p = some mk)
      (shape : content.flatMap ggEvents = mk.svgPaths.flatMap fun q => q.path.flatMap (withClose m) ++ paintOf q.style)
      (paint : ∀ b, painted ggStep b content = mk.svgPaths.flatMap fun q => ggPaintings q.style m (num 1))
      (nested : List.Forall₂ (ClipFor s m) mk.svgPaths clips)
      (clip : ∀ b, emitted ggClipStep b content = clipsOf mk.svgPaths clips) : ClipFor s m p (some content)

theorem ggClip_path (m : Matrix2D F) (path : Path) (b : Option (List (GGCall F))) :
    emitted ggClipStep b (path.flatMap fun op => GG.drawTo op m) = [] ∧ stateAfter ggClipStep b (path.flatMap fun op => GG.drawTo op m) = b := by
  refine emitted_quiet (fun c hc b => ?_) b
  obtain ⟨op, -, h⟩ := List.mem_flatMap.1 hc
  clear hc
  revert c
  cases op <;> simp [GG.drawTo, ggClipStep]

/-- The clip with which the fills and strokes of one path are made. -/
theorem clip_path {p : SvgPath F} {m : Matrix2D F} {o : F} {clip fs : List (GGCall F)} {k : Option (List (GGCall F))}
    (hf : GG.fillSetup p.style o = some fs) (hc : clip = [.resetClip] ∧ k = none ∨ ∃ content, clip = [.setMask content] ∧ k = some content)
    (b : Option (List (GGCall F))) :
    emitted ggClipStep b (clip ++ fs ++ GG.strokeSetup p.style m o ++ p.path.flatMap (fun op => GG.drawTo op m) ++ GG.finish p.style) =
      (paintOf p.style).map fun _ => k := by
  have qf : ∀ b, emitted ggClipStep b fs = [] ∧ stateAfter ggClipStep b fs = b := by
    refine emitted_quiet fun c hc' b => ?_
    unfold GG.fillSetup at hf
    split at hf
    · cases hf; cases hc'
    · cases hf
      simp only [List.mem_cons, List.not_mem_nil, or_false] at hc'
      rcases hc' with rfl | rfl <;> rfl
    · obtain ⟨pt, -, rfl⟩ := Option.map_eq_some_iff.1 hf
      simp only [List.mem_cons, List.not_mem_nil, or_false] at hc'
      rcases hc' with rfl | rfl <;> rfl
  have qs : ∀ b, emitted ggClipStep b (GG.strokeSetup p.style m o) = [] ∧ stateAfter ggClipStep b (GG.strokeSetup p.style m o) = b := by
    refine emitted_quiet fun c hc' b => ?_
    unfold GG.strokeSetup at hc'
    split at hc'
    · cases hc'
    · simp only [List.mem_cons, List.not_mem_nil, or_false] at hc'
      rcases hc' with rfl | rfl | rfl | rfl | rfl | rfl <;> rfl
  have e : ∀ b, emitted ggClipStep b clip = [] ∧ stateAfter ggClipStep b clip = k := by
    intro b
    rcases hc with ⟨rfl, rfl⟩ | ⟨content, rfl, rfl⟩ <;> exact ⟨rfl, rfl⟩
  simp only [List.append_assoc]
  rw [emitted_append, (e _).1, (e _).2, emitted_append, (qf _).1, (qf _).2, emitted_append, (qs _).1, (qs _).2, emitted_append, (ggClip_path _ _ _).1,
    (ggClip_path _ _ _).2]
  unfold GG.finish paintOf
  rcases p.style.fillerColor with _ | c <;> rcases p.style.linerColor with _ | c' <;> rfl

theorem drawAll_parts {f : SvgPath F → GG.Drawn (List (GGCall F))} : ∀ {ps : List (SvgPath F)} {cs : List (GGCall F)}, GG.drawAll f ps = .ok cs →
    ∃ parts, cs = parts.flatten ∧ List.Forall₂ (fun p c => f p = .ok c) ps parts
  | [], cs, h => by rw [GG.drawAll, GG.Drawn.ok.injEq] at h; subst h; exact ⟨[], rfl, .nil⟩
  | p :: ps, cs, h => by
    rw [GG.drawAll] at h
    split at h
    · rename_i c1 h1
      split at h
      · rename_i c2 h2
        rw [GG.Drawn.ok.injEq] at h
        subst h
        obtain ⟨parts, rfl, hp⟩ := drawAll_parts h2
        exact ⟨c1 :: parts, rfl, .cons h1 hp⟩
      · exact nomatch h
      · exact nomatch h
    · exact nomatch h
    · exact nomatch h

/-- The clips of several paths, from those of each. -/
theorem clip_all {R : SvgPath F → Option (List (GGCall F)) → Prop} {f : SvgPath F → GG.Drawn (List (GGCall F))} {ps : List (SvgPath F)} {cs : List (GGCall F)}
    (hf : ∀ p ∈ ps, ∀ c, f p = .ok c → ∃ k, R p k ∧ ∀ b, emitted ggClipStep b c = (paintOf p.style).map fun _ => k) (h : GG.drawAll f ps = .ok cs) :
    ∃ clips, List.Forall₂ R ps clips ∧ ∀ b, emitted ggClipStep b cs = clipsOf ps clips := by
  obtain ⟨parts, rfl, hp⟩ := drawAll_parts h
  clear h
  induction hp with
  | nil => exact ⟨[], .nil, fun _ => rfl⟩
  | @cons p c ps parts h1 _ ih =>
    obtain ⟨clips, h2, h3⟩ := ih fun q hq => hf q (List.mem_cons_of_mem _ hq)
    obtain ⟨k, hk, he⟩ := hf p List.mem_cons_self c h1
    refine ⟨k :: clips, .cons hk h2, fun b => ?_⟩
    rw [List.flatten_cons, emitted_append, he, h3]
    rfl

/-- C67 for the calls gg gets for one path, also inside masks. -/
theorem C67_gg_path {s : Svg F} : ∀ {fuel : Nat} {p : SvgPath F} {m : Matrix2D F} {o : F} {cs : List (GGCall F)},
    GG.drawTransformed s fuel p m o = .ok cs → ∃ k, ClipFor s m p k ∧ ∀ b, emitted ggClipStep b cs = (paintOf p.style).map fun _ => k := by
  intro fuel
  induction fuel with
  | zero =>
    intro p m o cs h
    obtain ⟨clip, fs, hf, rfl, ⟨rfl, hm⟩ | ⟨_, _, _, h0, _⟩⟩ := gg_transformed h
    · exact ⟨none, .free hm, clip_path hf (.inl ⟨rfl, rfl⟩)⟩
    · exact absurd h0 (by omega)
  | succ fuel ih =>
    intro p m o cs h
    obtain ⟨clip, fs, hf, rfl, ⟨rfl, hm⟩ | ⟨_, mk, content, h0, hm, hc, rfl⟩⟩ := gg_transformed h
    · exact ⟨none, .free hm, clip_path hf (.inl ⟨rfl, rfl⟩)⟩
    · cases h0
      obtain ⟨clips, h1, h2⟩ := clip_all (R := ClipFor s m) (fun q _ c hq => ih hq) hc
      exact ⟨some content, .mask hm (gg_all (fun _ _ hp => gg_path hp) _ _ hc) (gg_all_painted _ (fun _ _ _ h b => C66_gg_path h b) _ hc) h1 h2,
        clip_path hf (.inr ⟨_, rfl, rfl⟩)⟩

/-- C67 for gg, whenever drawing ends without a panic: each fill and stroke is clipped by the content of the last mask of its path, as
`ClipFor` says, and not by anything set earlier. Missing: see `C67_region_false`, `C67_transform_false` and `C67_nested_false`. -/
theorem C67_gg_partial {s : Svg F} {fuel : Nat} {opts : List (RenderOption F)} {cs : List (GGCall F)} (h : GG.draw s fuel opts = .ok cs) :
    ∃ clips, List.Forall₂ (fun p k => ClipFor s (p.style.transform.mult (options s.viewBox opts).target) p k) s.svgPaths clips ∧
      ∀ b, emitted ggClipStep b cs = clipsOf s.svgPaths clips :=
  clip_all (R := fun p k => ClipFor s (p.style.transform.mult (options s.viewBox opts).target) p k) (fun _ _ _ hp => C67_gg_path hp) h

/-- The picture with other masks on its paths. -/
def withMasks (f : SvgPath F → Slice) (masks : GoMap (SvgMask F)) (s : Svg F) : Svg F :=
  { s with svgMasks := masks, svgPaths := s.svgPaths.map fun p => { p with style := { p.style with masks := f p } } }

/-- C67 is false for draw2d: no drawing depends on the masks. -/
theorem C67_draw2d_false (s : Svg F) (opts : List (RenderOption F)) (f : SvgPath F → Slice) (masks : GoMap (SvgMask F)) :
    Draw2d.draw (withMasks f masks s) opts = Draw2d.draw s opts := by
  unfold Draw2d.draw withMasks
  rw [List.flatMap_map]
  rfl

/-- C67 is false for rasterx: no drawing depends on the masks. -/
theorem C67_rasterx_false [RxEnv F] (s : Svg F) (opts : List (RenderOption F)) (f : SvgPath F → Slice) (masks : GoMap (SvgMask F)) :
    Rx.draw (withMasks f masks s) opts = Rx.draw s opts := by
  unfold Rx.draw withMasks
  rw [List.flatMap_map]
  rfl

/-- The path with another transform. -/
def turned (t : SvgPath F → Matrix2D F) (q : SvgPath F) : SvgPath F := { q with style := { q.style with transform := t q } }

def regionOf (r : SvgMask F → Bounds F) (t : SvgPath F → Matrix2D F) (mk : SvgMask F) : SvgMask F :=
  { mk with x := (r mk).x, y := (r mk).y, w := (r mk).w, h := (r mk).h, svgPaths := mk.svgPaths.map (turned t) }

/-- The picture whose masks have other regions, and whose masks' paths have other transforms. -/
def withRegions (r : SvgMask F → Bounds F) (t : SvgPath F → Matrix2D F) (s : Svg F) : Svg F :=
  { s with svgMasks := s.svgMasks.map fun e => (e.1, regionOf r t e.2) }

theorem drawAll_congr {f g : SvgPath F → GG.Drawn (List (GGCall F))} (k : SvgPath F → SvgPath F) (h : ∀ p, f (k p) = g p) :
    ∀ ps : List (SvgPath F), GG.drawAll f (ps.map k) = GG.drawAll g ps
  | [] => rfl
  | p :: ps => by rw [List.map_cons, GG.drawAll, GG.drawAll, h, drawAll_congr k h ps]

theorem lookup_map {α β : Type} (f : α → β) (k : Str) : ∀ l : List (Str × α), (l.map fun e => (e.1, f e.2)).lookup k = (l.lookup k).map f
  | [] => rfl
  | (k', v) :: l => by
    rw [List.map_cons, List.lookup_cons, List.lookup_cons, lookup_map f k l]
    cases k == k' <;> rfl

theorem drawTransformed_regions (r : SvgMask F → Bounds F) (t : SvgPath F → Matrix2D F) (s : Svg F) : ∀ (fuel : Nat) (p p' : SvgPath F) (m : Matrix2D F) (o : F),
    (p' = p ∨ p' = turned t p) → GG.drawTransformed (withRegions r t s) fuel p' m o = GG.drawTransformed s fuel p m o
  | 0, p, p', m, o, h => by
    rcases h with rfl | rfl <;> (unfold GG.drawTransformed; rfl)
  | fuel + 1, p, p', m, o, h => by
    have e1 : p'.style.masks = p.style.masks := by rcases h with rfl | rfl <;> rfl
    have e2 : ∀ clip, GG.drawMasked p' m o clip = GG.drawMasked p m o clip := by intro clip; rcases h with rfl | rfl <;> rfl
    unfold GG.drawTransformed
    rw [e1]
    simp only [e2]
    rw [show (withRegions r t s).arrays = s.arrays from rfl]
    cases (p.style.masks.read s.arrays).getLast? with
    | none => rfl
    | some id =>
      dsimp only
      rw [show (withRegions r t s).svgMasks.find id = (s.svgMasks.find id).map (regionOf r t) from lookup_map _ _ _]
      cases s.svgMasks.find id with
      | none => rfl
      | some mk =>
        dsimp only [Option.map]
        rw [show (regionOf r t mk).svgPaths = mk.svgPaths.map (turned t) from rfl, drawAll_congr
          (f := fun q => GG.drawTransformed (withRegions r t s) fuel q m (num 1)) (g := fun q => GG.drawTransformed s fuel q m (num 1))
          (turned t) (fun q => drawTransformed_regions r t s fuel q _ m (num 1) (.inr rfl)) mk.svgPaths]

/-- C67 is false for the regions of masks and for the transforms inside them: no drawing of gg depends on these. -/
theorem C67_region_false (r : SvgMask F → Bounds F) (t : SvgPath F → Matrix2D F) (s : Svg F) (fuel : Nat) (opts : List (RenderOption F)) :
    GG.draw (withRegions r t s) fuel opts = GG.draw s fuel opts := by
  unfold GG.draw
  show GG.drawAll (fun p => GG.drawTransformed (withRegions r t s) fuel p _ _) s.svgPaths = _
  congr 1
  funext p
  exact drawTransformed_regions r t s fuel p p _ _ (.inl rfl)

end GoSvg

namespace GoSvg

open Spec

section Examples

attribute [local instance] asciiEnv
attribute [local instance] dummyLibm

/-- The clips of a drawing with gg: for each fill and stroke the pen movements of the mask. -/
def clipEvents (tokens : List Token) : Option (List (Option (List (Event F64)))) :=
  (svgOf tokens).bind fun s => match GG.draw s 3 [.target (num 0) (num 0) (num 1) (num 1)] with
    | .ok cs => some ((emitted ggClipStep none cs).map fun k => k.map fun c => (c.flatMap ggEvents).filter (· ≠ .close))
    | _ => none

def viewBox1 (content : List Token) : List Token := elem "svg" [("viewBox", "0 0 1 1")] content

/-- C67 at work: a masked path with a fill and a stroke, and a path without a mask after it. -/
theorem C67_example : clipEvents (viewBox1 (elem "mask" [("id", "a")] (elem "path" [("d", "M1 2 L3 4")]) ++
      elem "path" [("d", "M0 0 L8 0"), ("mask", "url(#a)"), ("stroke", "red")] ++ elem "path" [("d", "M0 0 L8 0")])) =
    some [some [.move (num 1) (num 2), .line (num 3) (num 4), .fill], some [.move (num 1) (num 2), .line (num 3) (num 4), .fill], none] := by
  decide +kernel

/-- C67 is false for transforms in masks: the path in the mask is moved by 5, but the content of the mask is not. -/
theorem C67_transform_false : clipEvents (viewBox1 (elem "mask" [("id", "a")] (elem "path" [("d", "M1 2 L3 4"), ("transform", "translate(5 0)")]) ++
      elem "path" [("d", "M0 0 L8 0"), ("mask", "url(#a)")])) =
    some [some [.move (num 1) (num 2), .line (num 3) (num 4), .fill]] := by decide +kernel

/-- C67 is false for paths with a mask in groups with a mask: only the mask of the path is used. -/
theorem C67_nested_false : clipEvents (viewBox1 (elem "mask" [("id", "a")] (elem "path" [("d", "M1 2 L3 4")]) ++
      elem "mask" [("id", "b")] (elem "path" [("d", "M5 6 L7 8")]) ++
      elem "g" [("mask", "url(#a)")] (elem "path" [("d", "M0 0 L8 0"), ("mask", "url(#b)")]))) =
    some [some [.move (num 5) (num 6), .line (num 7) (num 8), .fill]] := by decide +kernel

end Examples

end GoSvg
