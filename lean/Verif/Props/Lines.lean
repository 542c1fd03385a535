import Verif.Props.Clips
import Verif.Props.Picture

/-! # C89, C90: from the document to the settings of the lines and to the masks -/

namespace GoSvg.Spec

/-- The settings of draw2d for the lines of a look. -/
def Look.d2Pen (l : Look) : Pen D2Cap D2Join ℝ := ⟨plainCap.lookup l.cap, d2Joins.lookup l.join, some l.dash, some l.dashOffset⟩

/-- Those of gg. -/
def Look.ggPen (l : Look) : Pen D2Cap GGJoin ℝ := ⟨plainCap.lookup l.cap, ggJoins.lookup l.join, some l.dash, some l.dashOffset⟩

/-- Those of rasterx: the cap at the beginning is the one at the end, unless there is one. -/
structure RxPenOf (l : Look) (p : RxPen) : Prop where
  miter : |l.miter| < 2 ^ 25 → |(p.miterLimit / 64 : ℝ) - l.miter| < 1 / 64
  trail : rxCaps.lookup l.cap = some p.trail
  lead : rxCaps.lookup (if l.leadCap = .nilCap then l.cap else l.leadCap) = some p.lead
  gap : rxGaps.lookup l.gap = some p.gap
  join : p.join = l.join

/-- The looks with a stroke. -/
def lined (is : List (Look × Figure)) : List Look := (is.map Prod.fst).filter fun l => l.stroke.isSome

/-- What is drawn into a mask: the figures, under `f` and with full opacity. -/
def MaskShows (f : P2 → P2) (content : List (GGCall ℝ)) (is : List (Look × Figure)) : Prop :=
  ∀ b, List.Forall₂ (fun a e => (∃ pen, Covers (f ∘ e.1.1.place) pen e.1.2 ∧ visible (a.1, a.2.kind) = visible (pen, a.2.kind)) ∧
    BrushedAs GGInk (fun w v => v = w) a.2 e.2) (ggPicture b [] content) (pictureBy (fun j => f ∘ j.1.place) 1 is)

/-- The clip that is right for a painting under the masks with these names: none without a mask or if the mask does not exist, and otherwise what the mask
shows, where the masked figure is. -/
inductive ClippedBy (masks : Str → Option Stencil) (f : P2 → P2) : List Str → Option (List (GGCall ℝ)) → Prop
  | free : ClippedBy masks f [] none
  | unknown {id} : masks id = none → ClippedBy masks f [id] none
  | mask {id k content} : masks id = some k → MaskShows f content k.shown → ClippedBy masks f [id] (some content)

end GoSvg.Spec

namespace GoSvg

open Spec

section

variable [GoEnv]

variable {fuel : Nat} {lead post : List Token} {attrs : List Attr} {vb : Bounds ℝ} {l : Look} {T : Nodes} {E : Names} {is : List (Look × Figure)}

omit [GoEnv] in
theorem stroked_lined {P : Type} {R : SvgPath ℝ → P} {Q : Look → P → Prop} {mem : List (List Str)} {ps : List (SvgPath ℝ)} {is : List (Look × Figure)}
    (h : List.Forall₂ (Depicts mem) ps is) (hQ : ∀ p l, SameLook p.style l → Q l (R p)) :
    List.Forall₂ (fun a l => Q l a) ((ps.filter fun p => p.style.linerColor.isSome).map R) (lined is) := by
  unfold lined
  induction h with
  | nil => exact .nil
  | @cons p i ps is hpi _ ih =>
    rw [List.filter_cons, List.map_cons, List.filter_cons, hpi.look.stroke]
    split
    · exact .cons (hQ _ _ hpi.look.toSameLook) ih
    · exact ih

omit [GoEnv] in
theorem forall₂_eq_map {α β : Type} {f : β → α} {as : List α} {bs : List β} (h : List.Forall₂ (fun a b => a = f b) as bs) : as = bs.map f := by
  induction h with
  | nil => rfl
  | cons h _ ih => rw [h, ih, List.map_cons]

/-- C89 for draw2d: the strokes of a document (as in C85), in order, have the cap, the join, the dashes and the dash offset that the declarations say, with
all options. Partial: as `C85_tree_partial`; the dashes are not scaled with the drawing (`C65_dash_scale_false`). -/
theorem C89_draw2d_partial (hf : 2 ≤ fuel) (h1 : NoTags lead) (h2 : NoTags post) (hd : Distinct attrs) (hb : RootBox attrs vb)
    (hl : DeclaresAll true vb (fun _ => none) .initial (declared attrs) .initial l) (h : Shows vb l {} T E is) :
    ∃ s : Svg ℝ, (∀ m, parse fuel m (lead ++ .start "svg".toList attrs :: (T.tokens ++ .stop "svg".toList :: post)) .eof = .done (some s) none []) ∧
      ∀ opts b, emitted d2PenStep b (Draw2d.draw s opts) = (lined is).map Look.d2Pen := by
  obtain ⟨s, p1, p2, p3, -⟩ := C85_tree_partial hf h1 h2 hd hb hl h
  refine ⟨s, p1, fun opts b => ?_⟩
  rw [C65_draw2d]
  exact forall₂_eq_map (stroked_lined p3 (Q := fun l a => a = l.d2Pen) fun p l h => by simp only [Look.d2Pen, h.cap, h.join, h.dash, h.dashOffset])

/-- C89 for gg, when drawing ends without a panic. Partial: as for draw2d, and gg has no miter joins (`C65_gg_miter_false`). -/
theorem C89_gg_partial (hf : 2 ≤ fuel) (h1 : NoTags lead) (h2 : NoTags post) (hd : Distinct attrs) (hb : RootBox attrs vb)
    (hl : DeclaresAll true vb (fun _ => none) .initial (declared attrs) .initial l) (h : Shows vb l {} T E is) :
    ∃ s : Svg ℝ, (∀ m, parse fuel m (lead ++ .start "svg".toList attrs :: (T.tokens ++ .stop "svg".toList :: post)) .eof = .done (some s) none []) ∧
      ∀ fuel' opts cs, GG.draw s fuel' opts = .ok cs → ∀ b, emitted ggPenStep b cs = (lined is).map Look.ggPen := by
  obtain ⟨s, p1, p2, p3, -⟩ := C85_tree_partial hf h1 h2 hd hb hl h
  refine ⟨s, p1, fun fuel' opts cs hc b => ?_⟩
  rw [C65_gg_partial hc]
  exact forall₂_eq_map (stroked_lined p3 (Q := fun l a => a = l.ggPen) fun p l h => by simp only [Look.ggPen, h.cap, h.join, h.dash, h.dashOffset])

/-- C89 for rasterx: the two caps, the join, the gap, and the miter limit up to 1/64. Partial: as `C85_tree_partial`; rasterx draws no dashes
(`C65_rasterx_dash_false`). -/
theorem C89_rasterx_partial [RxEnv ℝ] (hf : 2 ≤ fuel) (h1 : NoTags lead) (h2 : NoTags post) (hd : Distinct attrs) (hb : RootBox attrs vb)
    (hl : DeclaresAll true vb (fun _ => none) .initial (declared attrs) .initial l) (h : Shows vb l {} T E is) :
    ∃ s : Svg ℝ, (∀ m, parse fuel m (lead ++ .start "svg".toList attrs :: (T.tokens ++ .stop "svg".toList :: post)) .eof = .done (some s) none []) ∧
      ∀ opts b, List.Forall₂ (fun a l => ∃ p, a = some p ∧ RxPenOf l p) (emitted rxPenStep b (Rx.draw s opts)) (lined is) := by
  obtain ⟨s, p1, p2, p3, -⟩ := C85_tree_partial hf h1 h2 hd hb hl h
  refine ⟨s, p1, fun opts b => ?_⟩
  rw [C65_rasterx_partial]
  refine stroked_lined p3 (Q := fun l a => ∃ p, a = some p ∧ RxPenOf l p) fun p l h => ?_
  have caps : ∀ c, ∃ r, rxCaps.lookup c = some r := fun c => by cases c <;> exact ⟨_, rfl⟩
  have gaps : ∀ c, ∃ r, rxGaps.lookup c = some r := fun c => by cases c <;> exact ⟨_, rfl⟩
  rw [h.cap, h.leadCap, h.gap, h.join, h.miter]
  obtain ⟨t, ht⟩ := caps l.cap
  obtain ⟨d, hd⟩ := caps (if l.leadCap = .nilCap then l.cap else l.leadCap)
  obtain ⟨g, hg⟩ := gaps l.gap
  refine ⟨⟨toFix l.miter, d, t, g, l.join⟩, by rw [ht, hd, hg]; rfl, ⟨fun hm => ?_, ht, hd, hg, rfl⟩⟩
  have := (C05_quantised l.miter (inFixRange_of hm)).2.1
  rwa [abs_sub_comm] at this

/-- The clips of paths, beside the paintings of the figures. -/
theorem clips_painted {R : SvgPath ℝ → Option (List (GGCall ℝ)) → Prop} {Q : Look × Figure → Option (List (GGCall ℝ)) → Prop} {mem : List (List Str)}
    {ps : List (SvgPath ℝ)} {is : List (Look × Figure)} {clips : List (Option (List (GGCall ℝ)))} (h : List.Forall₂ (Depicts mem) ps is)
    (hR : List.Forall₂ R ps clips) (hQ : ∀ p i, i ∈ is → Depicts mem p i → ∀ k, R p k → Q i k) (f : Look × Figure → P2 → P2) (o : ℝ) :
    List.Forall₂ (fun k e => Q e.1 k) (clipsOf ps clips) (pictureBy f o is) := by
  induction h generalizing clips with
  | nil => cases hR; exact .nil
  | @cons p i ps is hpi _ ih =>
    cases hR with
    | @cons _ k _ clips hk hR =>
    have tail := ih hR fun p i hi => hQ p i (List.mem_cons_of_mem _ hi)
    have hq := hQ p i List.mem_cons_self hpi k hk
    have e1 : clipsOf (p :: ps) (k :: clips) = (paintOf p.style).map (fun _ => k) ++ clipsOf ps clips := rfl
    have e2 : pictureBy f o (i :: is) = ((i.1.paints (f i) o).map fun x => (i, x)) ++ pictureBy f o is := rfl
    rw [e1, e2]
    refine List.rel_append ?_ tail
    unfold paintOf Look.paints
    rw [hpi.look.fill, hpi.look.stroke]
    cases i.1.fill <;> cases i.1.stroke <;> simp [hq]

/-- C90: a document (as in C85) is drawn by gg through its masks: every fill and stroke of a figure is clipped by what the mask it names shows, drawn with full
opacity where the masked figure is, and by nothing else; without a mask by nothing. Partial: as `C88_gg_partial`, also for what is in the masks; at most one mask
on a figure (`C67_nested_false`); no transforms in masks (`C67_transform_false`) and no masks in them; the region of a mask has no effect
(`C67_region_false`); draw2d and rasterx have no masks (`C67_draw2d_false`, `C67_rasterx_false`). -/
theorem C90_gg_partial (hf : 2 ≤ fuel) (h1 : NoTags lead) (h2 : NoTags post) (hd : Distinct attrs) (hb : RootBox attrs vb)
    (hl : DeclaresAll true vb (fun _ => none) .initial (declared attrs) .initial l) (h : Shows vb l {} T E is) (hr : ∀ i ∈ is, GGReady i)
    (hone : ∀ i ∈ is, i.1.masks.length ≤ 1) (hk : ∀ n k, E.masks n = some k → ∀ j ∈ k.shown, GGReady j ∧ j.1.masks = [] ∧ j.1.place = id) :
    ∃ s : Svg ℝ, (∀ m, parse fuel m (lead ++ .start "svg".toList attrs :: (T.tokens ++ .stop "svg".toList :: post)) .eof = .done (some s) none []) ∧
      ∀ x y w ht o, (∀ i ∈ is, InPlace vb x y w ht i.1.place) →
        (∃ cs, GG.draw s 1 [.target x y w ht, .opacity o] = .ok cs) ∧
        ∀ fuel' cs, GG.draw s fuel' [.target x y w ht, .opacity o] = .ok cs → ∀ b,
          List.Forall₂ (fun k e => ClippedBy E.masks (fitted vb x y w ht ∘ e.1.1.place) e.1.1.masks k) (emitted ggClipStep b cs) (picture vb x y w ht o is) := by
  obtain ⟨s, p1, p2, p3, p4, -⟩ := C85_tree_partial hf h1 h2 hd hb hl h
  refine ⟨s, p1, fun x y w ht o hin => ?_⟩
  subst p2
  have place : ∀ p i, i ∈ is → Depicts s.arrays p i →
      ∀ q, affine (p.style.transform.mult (options s.viewBox [.target x y w ht, .opacity o]).target) q = (fitted s.viewBox x y w ht ∘ i.1.place) q :=
    fun p i hi hpi => inPlace_affine hpi.look.place (hin i hi)
  have mask : ∀ p i, i ∈ is → Depicts s.arrays p i → (i.1.masks = [] ∧ maskOf s p = none) ∨ (∃ n, i.1.masks = [n] ∧ E.masks n = none ∧ maskOf s p = none) ∨
      ∃ n k m, i.1.masks = [n] ∧ E.masks n = some k ∧ maskOf s p = some m ∧ List.Forall₂ (Depicts s.arrays) m.svgPaths k.shown := by
    intro p i hi hpi
    unfold maskOf
    rw [hpi.look.masks]
    have := hone i hi
    match hm : i.1.masks, this with
    | [], _ => exact .inl ⟨rfl, rfl⟩
    | [n], _ =>
      have := p4 n
      cases hn : E.masks n with
      | none => rw [hn] at this; exact .inr (.inl ⟨n, rfl, hn, this⟩)
      | some k =>
        rw [hn] at this
        obtain ⟨m, e1, -, -, -, -, -, e2⟩ := this
        exact .inr (.inr ⟨n, k, m, rfl, hn, e1, e2⟩)
  constructor
  · refine gg_ends p3 hr fun p hp i hi hpi => ?_
    rcases mask p i hi hpi with ⟨-, e⟩ | ⟨n, -, -, e⟩ | ⟨n, k, m, -, e1, e2, e3⟩
    · exact .inl ⟨e, .inl (by decide)⟩
    · exact .inl ⟨e, .inl (by decide)⟩
    · obtain ⟨content, hc⟩ := gg_ends (s := s) (fuel := 0) (o := num 1)
        (M := fun _ => p.style.transform.mult (options s.viewBox [.target x y w ht, .opacity o]).target) e3 (fun j hj => (hk n k e1 j hj).1)
        fun q hq j hj hqj => .inl ⟨by unfold maskOf; rw [hqj.look.masks, (hk n k e1 j hj).2.1]; rfl, .inr (hk n k e1 j hj).2.1⟩
      exact .inr ⟨0, m, content, rfl, e2, hc⟩
  · intro fuel' cs hc b
    obtain ⟨clips, c1, c2⟩ := clip_all (R := fun p k => ∀ i ∈ is, Depicts s.arrays p i → ClippedBy E.masks (fitted s.viewBox x y w ht ∘ i.1.place) i.1.masks k)
      (fun p hp c hc => by
        obtain ⟨clip, fs, hf, rfl, ⟨rfl, hm⟩ | ⟨fuel'', mk, content, h0, hm, hcc, rfl⟩⟩ := gg_transformed hc
        · refine ⟨none, fun i hi hpi => ?_, clip_path hf (.inl ⟨rfl, rfl⟩)⟩
          rcases mask p i hi hpi with ⟨e, -⟩ | ⟨n, e1, e2, -⟩ | ⟨n, k, m, -, -, e2, -⟩
          · rw [e]; exact .free
          · rw [e1]; exact .unknown e2
          · rw [hm] at e2; exact nomatch e2
        · refine ⟨some content, fun i hi hpi => ?_, clip_path hf (.inr ⟨_, rfl, rfl⟩)⟩
          rcases mask p i hi hpi with ⟨-, e⟩ | ⟨n, -, -, e⟩ | ⟨n, k, m, e1, e2, e3, e4⟩
          · rw [hm] at e; exact nomatch e
          · rw [hm] at e; exact nomatch e
          · rw [hm, Option.some.injEq] at e3
            subst e3
            rw [e1]
            refine .mask e2 fun b => ?_
            have one : (num 1 : ℝ) = 1 := by simp
            exact gg_depicted e4 (fun j hj => (hk n k e2 j hj).1) (f := fun j => (fitted s.viewBox x y w ht ∘ i.1.place) ∘ j.1.place)
              (M := fun _ => p.style.transform.mult (options s.viewBox [.target x y w ht, .opacity o]).target)
              (fun q hq j hj hqj r => by rw [(hk n k e2 j hj).2.2]; exact place p i hi hpi r) (o := 1) (by norm_num) (by rw [one] at hcc; exact hcc) b) hc
    rw [c2]
    exact clips_painted p3 c1 (Q := fun i k => ClippedBy E.masks (fitted s.viewBox x y w ht ∘ i.1.place) i.1.masks k)
      (fun p i hi hpi k hk => hk i hi hpi) (fun i => fitted s.viewBox x y w ht ∘ i.1.place) o

end

section Examples

attribute [local instance] asciiEnv
attribute [local instance] dummyLibm

/-- C89 for the example of C85: four strokes, with butt caps and bevels and without dashes. -/
example : ∃ s : Svg ℝ, (∀ m, parse 2 m ([.other] ++ .start "svg".toList treeRoot :: (treeDoc.tokens ++ [.stop "svg".toList])) .eof = .done (some s) none []) ∧
    ∀ opts b, emitted d2PenStep b (Draw2d.draw s opts) = List.replicate 4 ⟨some .butt, some .bevel, some [], some 0⟩ := by
  obtain ⟨s, h1, h2⟩ := C89_draw2d_partial (fuel := 2) (le_refl _) (lead := [.other]) (post := []) (by decide) (by decide) (by decide) tree_box tree_root tree_shows
  exact ⟨s, h1, fun opts b => (h2 opts b).trans rfl⟩

def maskRoot : List Attr := attrsOf [("viewBox", "0 0 100 50"), ("stroke", "blue"), ("fill", "none"), ("stroke-linecap", "round"), ("stroke-linejoin", "miter")]
def maskCircle : List Attr := attrsOf [("cx", "10"), ("r", "5"), ("cy", "10%"), ("mask", "url(#m)")]
def maskDoc : Nodes := .mask treeMask (.shape "circle".toList treeCircle [] .nil) (.shape "circle".toList maskCircle [] .nil)

def lineLook : Look := { blueLook with fill := none, cap := .round, join := .miter }

theorem mask_box : RootBox maskRoot treeBox := by
  have := RootBox.given (attrs := maskRoot) (v := "0 0 100 50".toList) (x := 0) (y := 0) (w := 100) (h := 50) (W := 0) (H := 0) (by decide +kernel)
    ⟨⟨[int "" "0", int " " "0", int " " "100", int " " "50"], []⟩, by decide +kernel, by decide +kernel,
      by simp [GroupList.numbers, Group.numbers, int, Spelling.value, Spelling.absValue, natVal]⟩ (.absent (not_given (by decide)))
    (.absent (not_given (by decide)))
  simpa [treeBox] using this

theorem mask_root : DeclaresAll true treeBox (fun _ => none) .initial (declared maskRoot) .initial lineLook := by
  have e : declared maskRoot = [("viewbox".toList, "0 0 100 50".toList), ("stroke".toList, "blue".toList), ("fill".toList, "none".toList),
    ("stroke-linecap".toList, "round".toList), ("stroke-linejoin".toList, "miter".toList)] := by decide +kernel
  rw [e]
  exact .cons (.other (by decide)) (.cons (.stroke (.name (n := "blue".toList) (by decide) (by decide +kernel))) (.cons (.fill (.none (by decide)))
    (.cons (.cap (x := .round) (by decide)) (.cons (.join (x := .miter) (by decide)) .nil))))

theorem mask_circle : Figures treeBox "circle".toList maskCircle [treeFigure] := by
  have hy : Measures treeBox maskCircle "cy" .height 5 := by
    have := LengthText.percent (vb := treeBox) (ref := .height) (whole "10") (whole_wf _ (by decide)) (w := []) (w' := []) (w'' := []) (fun _ h => nomatch h)
      (fun _ h => nomatch h) (fun _ h => nomatch h)
    rw [whole_value.1] at this
    have e : (10 : ℝ) / 100 * refLength treeBox .height = 5 := by simp [refLength, treeBox]; norm_num
    rw [e] at this
    exact .given (v := "10%".toList) (by decide) this
  exact .ellipse (.inl rfl) (measures_whole (s := "10") (by decide) (whole_wf _ (by decide)) whole_value.1) hy
    (.one (measures_whole (s := "5") (by decide) (whole_wf _ (by decide)) whole_value.2.1) (not_given (by decide)) (not_given (by decide)))
    (by norm_num) (by norm_num)

theorem line_plain (ms : List Str) : ({ lineLook with masks := ms } : Look).Plain where
  fill _ h := nomatch h
  stroke p h := by injection h with h; exact ⟨0, 0, 255, by decide, by decide, by decide, h.symm⟩
  fillOpacity := by constructor <;> norm_num [lineLook, blueLook, Look.initial]
  strokeOpacity := by constructor <;> norm_num [lineLook, blueLook, Look.initial]

theorem line_ready (ms : List Str) : GGReady ({ lineLook with masks := ms }, treeFigure) :=
  ⟨line_plain ms, fun G h => (tree_circle_one h).2, by simp [lineLook, blueLook]⟩

theorem mask_shows : ∃ E, Shows treeBox lineLook {} maskDoc E [({ lineLook with masks := ["m".toList] }, treeFigure)] ∧
    ∀ n, E.masks n = if n = "m".toList then some ⟨0, 0, 10, 0, [(lineLook, treeFigure)]⟩ else none := by
  have d1 : declared treeMask = [("width".toList, "10".toList), ("id".toList, "m".toList)] := by decide +kernel
  have d2 : declared maskCircle = [("cx".toList, "10".toList), ("r".toList, "5".toList), ("cy".toList, "10%".toList),
    ("mask".toList, "url(#".toList ++ "m".toList ++ ")".toList)] := by decide +kernel
  refine ⟨({} : Names).mask "m".toList ⟨0, 0, 10, 0, [(lineLook, treeFigure)]⟩, .mask (l' := lineLook) (id := "m".toList) (is := [(lineLook, treeFigure)])
    (by decide) ?_ (.inl ⟨by decide, by decide⟩)
      (measures_none (by decide)) (measures_none (by decide)) (measures_whole (s := "10") (by decide) (whole_wf _ (by decide)) whole_value.1)
      (measures_none (by decide)) ?_ (by decide) (.shape (by decide) tree_declared_circle tree_circle (by decide) .nil)
      (.shape (by decide) ?_ mask_circle (by decide) .nil), fun n => rfl⟩
  · rw [d1]; exact .cons (.other (by decide)) (.cons (.other (by decide)) .nil)
  · intro as has
    rcases List.mem_cons.1 has with h | has
    · injection h with h; exact absurd h (by decide)
    · rcases List.mem_cons.1 has with h | has
      · cases h
      · cases has
  · rw [d2]
    exact .cons (.other (by decide)) (.cons (.other (by decide)) (.cons (.other (by decide)) (.cons (.mask (id := "m".toList) (by decide) (by decide)) .nil)))

/-- C90: a circle under a mask with a circle. The one stroke is clipped by one stroke. -/
example : ∃ s : Svg ℝ, (∀ m, parse 2 m ([.other] ++ .start "svg".toList maskRoot :: (maskDoc.tokens ++ [.stop "svg".toList])) .eof = .done (some s) none []) ∧
    ∃ cs, GG.draw s 1 [.target 0 0 100 50, .opacity 1] = .ok cs ∧
    ∀ b, ∃ content, emitted ggClipStep b cs = [some content] ∧ ∀ b, ∃ o c, ggPicture b [] content = [(o, .stroke (some (.solid c)) (some 2))] ∧
      c.r = 0 ∧ c.g = 0 ∧ c.b = 255 ∧ |(c.a : ℝ) - 255| ≤ 1 := by
  obtain ⟨E, hE, hm⟩ := mask_shows
  obtain ⟨s, h1, h2⟩ := C90_gg_partial (fuel := 2) (le_refl _) (lead := [.other]) (post := []) (by decide) (by decide) (by decide) mask_box mask_root hE
    (by intro i hi; cases List.mem_singleton.1 hi; exact line_ready _) (by intro i hi; cases List.mem_singleton.1 hi; decide)
    (by
      intro n k hk j hj
      rw [hm] at hk
      split at hk
      · cases hk; cases List.mem_singleton.1 hj; exact ⟨line_ready [], rfl, rfl⟩
      · cases hk)
  obtain ⟨⟨cs, h3⟩, h2⟩ := h2 0 0 100 50 1 (by intro i hi; cases List.mem_singleton.1 hi; exact inPlace_plain)
  refine ⟨s, h1, cs, h3, fun b => ?_⟩
  have key := h2 1 cs h3 b
  generalize emitted ggClipStep b cs = l at key ⊢
  simp only [picture, pictureBy, List.flatMap_cons, List.flatMap_nil, Look.paints, lineLook, blueLook, Look.initial, Option.toList, List.map_cons, List.map_nil,
    List.nil_append, List.append_nil] at key
  have hn : l.length = 1 := key.length_eq
  match l, hn, key with
  | [a], _, key =>
  simp only [List.forall₂_cons] at key
  obtain ⟨k, -⟩ := key
  cases k with
  | unknown h => rw [hm, if_pos rfl] at h; cases h
  | @mask _ k content h hs =>
    rw [hm, if_pos rfl] at h
    cases h
    refine ⟨content, rfl, fun b => ?_⟩
    have key := hs b
    generalize ggPicture b [] content = l at key ⊢
    simp only [pictureBy, List.flatMap_cons, List.flatMap_nil, Look.paints, lineLook, blueLook, Look.initial, Option.toList, List.map_cons, List.map_nil,
      List.nil_append, List.append_nil] at key
    have hn : l.length = 1 := key.length_eq
    match l, hn, key with
    | [(o, a)], _, key =>
    simp only [List.forall₂_cons] at key
    obtain ⟨⟨-, k⟩, -⟩ := key
    cases k with
    | @stroke _ _ _ c v k k' =>
      obtain ⟨c, rfl, _, _, _, e, k1, k2, k3, k4⟩ := k
      cases e
      have e : (2 : ℝ) * meanScale ((fitted treeBox 0 0 100 50 ∘ id) ∘ id) = 2 := by
        simp [meanScale, fitted, treeBox]
      subst k'
      refine ⟨o, c, by rw [e], k1, k2, k3, ?_⟩
      have : (255 : ℝ) * (1 * 1) = 255 := by norm_num
      rwa [this] at k4

/-- C89 for gg and rasterx: the stroke has round caps; its miter join is a bevel in gg. -/
example [RxEnv ℝ] : ∃ s : Svg ℝ, (∀ m, parse 2 m ([.other] ++ .start "svg".toList maskRoot :: (maskDoc.tokens ++ [.stop "svg".toList])) .eof = .done (some s) none []) ∧
    (∀ fuel' opts cs, GG.draw s fuel' opts = .ok cs → ∀ b, emitted ggPenStep b cs = [⟨some .round, some .bevel, some [], some 0⟩]) ∧
    ∀ opts b, ∃ ml, emitted rxPenStep b (Rx.draw s opts) = [some ⟨ml, .round, .round, .flat, .miter⟩] ∧ |(ml / 64 : ℝ) - 4| < 1 / 64 := by
  obtain ⟨E, hE, -⟩ := mask_shows
  obtain ⟨s, h1, h2⟩ := C89_gg_partial (fuel := 2) (le_refl _) (lead := [.other]) (post := []) (by decide) (by decide) (by decide) mask_box mask_root hE
  obtain ⟨s', h1', h3⟩ := C89_rasterx_partial (fuel := 2) (le_refl _) (lead := [.other]) (post := []) (by decide) (by decide) (by decide) mask_box mask_root hE
  have e := (h1 .strict).symm.trans (h1' .strict)
  injection e with e
  injection e with e
  subst e
  refine ⟨s, h1, fun fuel' opts cs h b => (h2 fuel' opts cs h b).trans rfl, fun opts b => ?_⟩
  have key := h3 opts b
  generalize emitted rxPenStep b _ = l at key ⊢
  have hl : lined [({ lineLook with masks := ["m".toList] }, treeFigure)] = [{ lineLook with masks := ["m".toList] }] := rfl
  rw [hl] at key
  have hn : l.length = 1 := key.length_eq
  match l, hn, key with
  | [a], _, key =>
  simp only [List.forall₂_cons] at key
  obtain ⟨⟨p, rfl, k1, k2, k3, k4, k5⟩, -⟩ := key
  obtain ⟨ml, ld, tr, gp, j⟩ := p
  have k2 : some RxCap.round = some tr := k2
  have k3 : some RxCap.round = some ld := k3
  have k4 : some RxGap.flat = some gp := k4
  have k5 : j = .miter := k5
  cases k2; cases k3; cases k4; cases k5
  exact ⟨ml, rfl, k1 (by norm_num [lineLook, blueLook, Look.initial])⟩

end Examples

end GoSvg
