import Verif.Lemmas.GradComplete
import Verif.Lemmas.Docs
import Verif.Lemmas.DocsNest
import Verif.Props.Numbers
import Verif.Props.Parsing

/-! C38 - C40: gradients. -/

set_option linter.unusedSectionVars false

namespace GoSvg

open Spec

variable {F : Type} [GoFloat F] [GoEnv]

open SM (get modify throw lift panic diverge forEach)

/-! ### C38 -/

/-- C38, partial: in a balanced document that is read without error, the paint of a path is what the declarations on the elements
from the root to its own make of the default paint. A declaration `url(#id)` takes the gradient that `id` names *before the start
tag with the declaration*, with the stops that it has got there and with missing colours filled in from the paint so far. What
comes later plays no role. Missing: documents that use incomplete definitions; the matrix of a gradient with
`gradientTransform` in a transformed element (see C64). -/
theorem C38_paint_partial {fuel : Nat} {m : ErrorMode} {pre post : List Token} {name : Str} {attrs : List Attr} {s : Svg F}
    {l : List Msg} {i : Nat} {p : SvgPath F} (hb : Balanced (pre ++ [.start name attrs]))
    (h : parse (F := F) fuel m (pre ++ .start name attrs :: post) .eof = .done (some s) none l)
    (hd : DrawnBy (F := F) fuel m pre (.start name attrs) i) (hp : s.svgPaths[i]? = some p) (K : PaintKind) :
    PaintAlong fuel m K.attr K.initial (framesOf (pre ++ [.start name attrs])) (K.of p.style) := by
  obtain ⟨c, c', cf, h1, h2, -, -, h4⟩ := drawnBy_states h hd hp
  obtain ⟨ch, hch⟩ : ∃ ch, openFrom [] pre = some ch := by
    obtain ⟨ch, hch⟩ := Option.isSome_iff_exists.1 hb.nested
    rw [openFrom_append] at hch
    cases hx : openFrom [] pre with
    | none => rw [hx] at hch; cases hch
    | some ch => exact ⟨ch, rfl⟩
  obtain ⟨b1, ⟨done, w1⟩, -⟩ := balanced_run (V := fun _ _ => True)
    (W := fun ch ts c => ∃ done, PaintAt fuel m (pre ++ [.start name attrs]) done ch ts c) (fuel := fuel) (fun _ _ _ _ => trivial)
    (fun _ _ _ _ _ _ _ hj ⟨done, hw⟩ hst hr => ⟨_, paintAt_step hj hw hst hr⟩) [.start name attrs] pre [] ch _ c () (balAt_init m hb)
    ⟨[], rfl, rfl, rfl, defsQ_init _ m, gradTable_init _ m, rfl⟩ (show StackAt _ [] (initCursor (F := F) m).styleStack from rfl) hch h1
  have hdone : done = pre := (List.append_cancel_right w1.full).symm
  subst hdone
  obtain ⟨top, rest, st, e1, e2, ⟨new, e3, e4⟩, e5⟩ := start_painted b1 w1 h2
  rw [e4 p (h4 new e3), framesOf_snoc]
  cases K with
  | fill => exact e5.1
  | stroke => exact e5.2.1

theorem refersTo_unique {v id id' : Str} (h : RefersTo v id) (h' : RefersTo v id') : id' = id := by
  have h1 := ((refersTo_iff v id).1 h).2
  have h2 := ((refersTo_iff v id').1 h').2
  rw [h1] at h2
  cases h2; rfl

theorem painted_step {fuel : Nat} {m : ErrorMode} {K : PaintKind} {pre post : List Token} {e : Elem} {p : SvgPath F} {v : Str}
    (hb : Balanced (pre ++ [.start e.name e.attrs]))
    (hpath : ∃ s l i, parse fuel m (pre ++ .start e.name e.attrs :: post) .eof = .done (some s) none l ∧
      DrawnBy (F := F) fuel m pre (.start e.name e.attrs) i ∧ s.svgPaths[i]? = some p) (hv : valuesOf K.attr e.attrs = [v]) :
    ∃ q, PaintAlong fuel m K.attr K.initial (framesOf pre) q ∧ PaintStep fuel m pre q v (K.of p.style) := by
  obtain ⟨s, l, i, h1, h2, h3⟩ := hpath
  have := C38_paint_partial hb h1 h2 h3 K
  rw [framesOf_snoc] at this
  obtain ⟨q, k1, k2⟩ := this
  rw [hv] at k2
  obtain ⟨q', k2, rfl⟩ := k2
  exact ⟨q, k1, k2⟩

/-- C38 and the second part of C39, partial: a fill or stroke `url(#id)` is the latest gradient with that name begun before the
element, with the stops so far, the view box of its start, and the colour of the inherited paint in the stops without a colour.
Another element with the same reference gets its own completion of the same gradient. Missing as in `C38_paint_partial`. -/
theorem C38_reference_partial {fuel : Nat} {m : ErrorMode} {K : PaintKind} {pre post : List Token} {e : Elem} {t : GradientText}
    {p : SvgPath F} (h : PaintedBy fuel m K pre e post t p) :
    ∃ (g : Gradient F) (q : Option (Pattern F)), GradientOf (viewBoxAfter fuel m t.before) t g ∧ PaintAlong fuel m K.attr K.initial (framesOf pre) q ∧
      K.of p.style = some (.gradient (Gradient.complete g (paintColor q))) := by
  obtain ⟨v, id, hv, hr, hn⟩ := h.reference
  obtain ⟨q, k1, k2⟩ := painted_step h.balanced h.path hv
  cases hq : K.of p.style with
  | none =>
    rw [hq] at k2
    generalize hx : (none : Option (Pattern F)) = x at k2
    cases k2 with
    | gradient g1 g2 g3 => cases hx
    | color g1 g2 => exact absurd (g1 id hr) (by rw [hn]; simp)
  | some pt =>
    rw [hq] at k2
    generalize hx : (some pt : Option (Pattern F)) = x at k2
    cases k2 with
    | gradient g1 g2 g3 =>
      cases refersTo_unique hr g1
      rw [hn] at g2
      cases g2
      exact ⟨_, q, g3, k1, rfl⟩
    | color g1 g2 => exact absurd (g1 id hr) (by rw [hn]; simp)

/-- C38: a reference to a gradient that has not begun yet is black, in balanced documents. -/
theorem C38_unresolved_partial {fuel : Nat} {m : ErrorMode} {K : PaintKind} {pre post : List Token} {e : Elem} {p : SvgPath F} {v id : Str}
    (hb : Balanced (pre ++ [.start e.name e.attrs]))
    (hpath : ∃ s l i, parse fuel m (pre ++ .start e.name e.attrs :: post) .eof = .done (some s) none l ∧
      DrawnBy (F := F) fuel m pre (.start e.name e.attrs) i ∧ s.svgPaths[i]? = some p) (hv : valuesOf K.attr e.attrs = [v])
    (hr : RefersTo v id) (hn : gradientNamed id pre = none) : K.of p.style = some (.plain ⟨0, 0, 0, 255⟩) := by
  obtain ⟨q, -, k2⟩ := painted_step hb hpath hv
  generalize hx : K.of p.style = x at k2
  cases k2 with
  | gradient g1 g2 g3 =>
    cases refersTo_unique hr g1
    rw [hn] at g2; cases g2
  | color g1 g2 =>
    have : parseSVGColor v = .ok (some ⟨0, 0, 0, 255⟩) := by
      obtain ⟨w, w', -, -, -, rfl⟩ := hr
      unfold parseSVGColor
      rw [if_pos]
      rw [hasPrefix_iff, List.append_assoc]
      unfold toLower
      rw [List.map_append]
      have : ("url(".toList).map GoEnv.toLower = "url".toList ++ ['('] := by
        show [GoEnv.toLower 'u', GoEnv.toLower 'r', GoEnv.toLower 'l', GoEnv.toLower '('] = _
        rw [GoEnv.toLower_ascii _ (by decide), GoEnv.toLower_ascii _ (by decide), GoEnv.toLower_ascii _ (by decide),
          GoEnv.toLower_ascii _ (by decide)]
        decide
      rw [this, List.append_assoc]
      exact List.prefix_append _ _
    rw [this] at g2
    cases g2; rfl

/-- C38 for all documents: the paints of the paths drawn so far are not changed by anything that follows. -/
theorem C38_later {fuel : Nat} {m : ErrorMode} {pre post : List Token} {e : Nat} {fin : StreamEnd} {s0 s1 : Svg F}
    {err0 err1 : Option Err} {log0 log1 : List Msg} (h0 : parse fuel m pre (.error e) = .done (some s0) err0 log0)
    (h1 : parse fuel m (pre ++ post) fin = .done (some s1) err1 log1) {i : Nat} {p : SvgPath F} (hp : s0.svgPaths[i]? = some p) :
    ∃ p', s1.svgPaths[i]? = some p' ∧ ∀ K : PaintKind, K.of p'.style = K.of p.style := by
  obtain ⟨r, hr⟩ := (C29_prefix_partial h0 h1).1
  refine ⟨p, ?_, fun _ => rfl⟩
  have hi : i < s0.svgPaths.length := (List.getElem?_eq_some_iff.1 hp).1
  rw [← hr, List.getElem?_append_left hi, hp]

/-! ### C39 -/

theorem noGaps_of {p : Option (Pattern F)} (h : PatternOK p) : NoGaps p := by
  rcases p with _ | ⟨c | g⟩
  · trivial
  · trivial
  · obtain ⟨h1, h2⟩ := h g rfl
    exact ⟨Option.isSome_iff_exists.1 h1, fun s hs => Option.isSome_iff_exists.1 (h2 s hs)⟩

/-- C39 for all documents and all modes, also if an error is returned: the gradients in the styles of the paths of the drawing and of
its masks have a direction and a colour in each stop. -/
theorem C39_complete {fuel : Nat} {m : ErrorMode} {tokens : List Token} {fin : StreamEnd} {s : Svg F} {err : Option Err} {log : List Msg}
    (h : parse fuel m tokens fin = .done (some s) err log) :
    (∀ p ∈ s.svgPaths, ∀ K : PaintKind, NoGaps (K.of p.style)) ∧
    ∀ id mk, s.svgMasks.find id = some mk → ∀ p ∈ mk.svgPaths, ∀ K : PaintKind, NoGaps (K.of p.style) := by
  have hr := (readTokens_svg h).1
  have hs := (readTokens_paints fuel tokens (initCursor m) (shown_init (F := F) m) (directed_init m)).1
  have key : ∀ p : SvgPath F, StyleOK p.style → ∀ K : PaintKind, NoGaps (K.of p.style) := by
    intro p hp K
    cases K with
    | fill => exact noGaps_of hp.1
    | stroke => exact noGaps_of hp.2
  rw [← hr]
  exact ⟨fun p hp => key p (hs.paths p hp), fun id mk hf p hp => key p (hs.masks id mk hf p hp)⟩

/-- C39, partial: the stops of a gradient are those of the text, in order, and the ones without a colour of their own have the colour
of the inherited paint (that of a gradient being its first). Missing as in `C38_paint_partial`. -/
theorem C39_filled_partial {fuel : Nat} {m : ErrorMode} {K : PaintKind} {pre post : List Token} {e : Elem} {t : GradientText}
    {p : SvgPath F} (h : PaintedBy fuel m K pre e post t p) :
    ∃ (g : Gradient F) (q : Option (Pattern F)), K.of p.style = some (.gradient g) ∧ PaintAlong fuel m K.attr K.initial (framesOf pre) q ∧
      List.Forall₂ (fun attrs s => ∃ c, StopOf (F := F) attrs ⟨c, s.offset, s.opacity⟩ ∧ s.stopColor = some (c.getD (paintColor q)))
        t.stops g.stops := by
  obtain ⟨g, q, h1, h2, h3⟩ := C38_reference_partial h
  refine ⟨_, q, h3, h2, ?_⟩
  show List.Forall₂ _ t.stops (g.stops.map _)
  rw [List.forall₂_map_right_iff]
  exact h1.stops.imp fun a s hs => ⟨s.stopColor, hs, rfl⟩

/-! ### C40 -/

/-- C40 for every arithmetic, partial: the direction of a gradient in a paint is read from its attributes with the defaults that
`DirectionOf` lists, percentages referring to the unit square or to the view box by the `gradientUnits` of the attribute list,
wherever they stand. Missing as in `C38_paint_partial`. -/
theorem C40_direction_partial {fuel : Nat} {m : ErrorMode} {K : PaintKind} {pre post : List Token} {e : Elem} {t : GradientText}
    {p : SvgPath F} (h : PaintedBy fuel m K pre e post t p) :
    ∃ g d, K.of p.style = some (.gradient g) ∧ g.direction = some d ∧ g.units = unitsOf t.attrs ∧
      DirectionOf (percentBox (unitsOf t.attrs) (viewBoxAfter fuel m t.before)) t.attrs t.name d := by
  obtain ⟨g, q, h1, -, h3⟩ := C38_reference_partial h
  obtain ⟨d, hd, hdir⟩ := h1.direction
  exact ⟨_, d, h3, hd, h1.units, hdir⟩

theorem valuesNamed_append (n : String) (as bs : List Attr) : valuesNamed n (as ++ bs) = valuesNamed n as ++ valuesNamed n bs := by
  unfold valuesNamed; rw [List.filter_append, List.map_append]

/-- C40: `gradientUnits` counts wherever it stands. -/
theorem C40_units_anywhere {as bs : List Attr} {v : Str} {u : GradientUnits} {w w' : Str} (hw : Blank w) (hw' : Blank w')
    (hv : (v, u) ∈ [("userSpaceOnUse".toList, GradientUnits.userSpaceOnUse), ("objectBoundingBox".toList, .objectBoundingBox)])
    (ha : valuesNamed "gradientUnits" as = []) (hb : valuesNamed "gradientUnits" bs = []) :
    unitsOf (as ++ ⟨"gradientUnits".toList, w ++ v ++ w'⟩ :: bs) = u ∧ unitsOf (as ++ bs) = .objectBoundingBox := by
  have hone : valuesNamed "gradientUnits" (⟨"gradientUnits".toList, w ++ v ++ w'⟩ :: bs) = [w ++ v ++ w'] := by
    have : valuesNamed "gradientUnits" (⟨"gradientUnits".toList, w ++ v ++ w'⟩ :: bs) = (w ++ v ++ w') :: valuesNamed "gradientUnits" bs := rfl
    rw [this, hb]
  constructor
  · unfold unitsOf
    rw [valuesNamed_append, ha, hone]
    have ht : Trimmed v := by
      simp only [List.mem_cons, Prod.mk.injEq, List.not_mem_nil, or_false] at hv
      rcases hv with ⟨rfl, -⟩ | ⟨rfl, -⟩ <;> exact trimmed_of_all (by decide)
    have htr : trimSpace (w ++ v ++ w') = v := by
      have hne : v ≠ [] := by
        simp only [List.mem_cons, Prod.mk.injEq, List.not_mem_nil, or_false] at hv
        rcases hv with ⟨rfl, -⟩ | ⟨rfl, -⟩ <;> decide
      exact trimSpace_pad hw hw' ht
    simp only [List.nil_append, List.filterMap_cons, List.filterMap_nil, htr]
    simp only [List.mem_cons, Prod.mk.injEq, List.not_mem_nil, or_false] at hv
    rcases hv with ⟨rfl, rfl⟩ | ⟨rfl, rfl⟩ <;> rfl
  · unfold unitsOf
    rw [valuesNamed_append, ha, hb]
    rfl

/-- A percentage. -/
def IsPercent (v : Str) (n : Spelling) : Prop :=
  n.WF ∧ ∃ w w' w'', Blank w ∧ Blank w' ∧ Blank w'' ∧ v = w ++ (n.text ++ w' ++ "%".toList) ++ w''

/-- Width and height of what percentages refer to. -/
noncomputable def gradWidth (u : GradientUnits) (vb : Bounds ℝ) : ℝ := match u with | .userSpaceOnUse => vb.w | .objectBoundingBox => 1
noncomputable def gradHeight (u : GradientUnits) (vb : Bounds ℝ) : ℝ := match u with | .userSpaceOnUse => vb.h | .objectBoundingBox => 1
/-- The normalised diagonal. -/
noncomputable def gradDiag (u : GradientUnits) (vb : Bounds ℝ) : ℝ :=
  Real.sqrt (gradWidth u vb ^ 2 + gradHeight u vb ^ 2) / Real.sqrt 2

/-- The extent for each kind of length. -/
noncomputable def gradExtent (u : GradientUnits) (vb : Bounds ℝ) : PercRef → ℝ
  | .width => gradWidth u vb
  | .height => gradHeight u vb
  | .diag => gradDiag u vb

theorem percent_len {u : GradientUnits} {vb : Bounds ℝ} {v : Str} {n : Spelling} (h : IsPercent v n) (r : PercRef) :
    resolveUnit (percentBox u vb) v r = .ok ((n.value : ℝ) / 100 * gradExtent u vb r) := by
  obtain ⟨hn, w, w', w'', hw, hw', hw'', rfl⟩ := h
  obtain ⟨h1, h2, h3⟩ := C04_percent n hn hw hw' hw'' (percentBox u vb)
  have e1 : (percentBox u vb).w = gradWidth u vb := by
    cases u
    · show ((1 : ℚ) : ℝ) = 1; simp
    · rfl
  have e2 : (percentBox u vb).h = gradHeight u vb := by
    cases u
    · show ((1 : ℚ) : ℝ) = 1; simp
    · rfl
  rw [e1] at h1 h3
  rw [e2] at h2 h3
  cases r with
  | width => exact h1
  | height => exact h2
  | diag => exact h3

theorem percent_of {neg : Bool} {ip : Str} (hd : Digits ip) (hne : ip ≠ []) (v : Str) (hv : v = (if neg then ['-'] else []) ++ ip ++ ['%']) :
    IsPercent v ⟨neg, ip, none, none⟩ :=
  ⟨⟨hd, (fun f h => by cases h), .inl hne, (fun s d h => by cases h)⟩, [], [], [], by simp [Blank], by simp [Blank], by simp [Blank], by
    rw [hv]; simp [Spelling.text, Spelling.body]⟩

/-- A length of a gradient: the default value, percentages, and lengths that are no percentages. -/
structure LengthRead (u : GradientUnits) (vb : Bounds ℝ) (attrs : List Attr) (name : String) (r : PercRef) (d x : ℝ) : Prop where
  default : valuesNamed name attrs = [] → x = d
  percent : ∀ v n, (valuesNamed name attrs).getLast? = some v → IsPercent v n → x = (n.value : ℝ) / 100 * gradExtent u vb r
  length : ∀ v, (valuesNamed name attrs).getLast? = some v → (trimSpace v).getLast? ≠ some '%' →
    ∀ box : Bounds ℝ, ∀ r', resolveUnit box v r' = .ok x

theorem gradLen_read {u : GradientUnits} {vb : Bounds ℝ} {attrs : List Attr} {name : String} {dv : Str} {r : PercRef} {x d : ℝ}
    (h : GradLen (percentBox u vb) attrs name dv r x) (hd : resolveUnit (percentBox u vb) dv r = .ok d) :
    LengthRead u vb attrs name r d x := by
  unfold GradLen at h
  refine ⟨fun hn => ?_, fun v n hv hp => ?_, fun v hv hp box r' => ?_⟩
  · rw [hn] at h
    have := h.symm.trans hd
    cases this; rfl
  · rw [hv] at h
    have := h.symm.trans (percent_len hp r)
    cases this; rfl
  · rw [hv] at h
    rw [C04_not_percent v hp box (percentBox u vb) r' r]
    exact h

/-- C40 in exact arithmetic, linear gradients: the vector is (0, 0) - (100%, 0) unless given; percentages are those of the unit
square or of the view box. -/
theorem C40_linear {u : GradientUnits} {vb : Bounds ℝ} {attrs : List Attr} {d : Direction ℝ}
    (h : DirectionOf (percentBox u vb) attrs "linearGradient".toList d) :
    ∃ x1 y1 x2 y2, d = .linear x1 y1 x2 y2 ∧
      LengthRead u vb attrs "x1" .width 0 x1 ∧ LengthRead u vb attrs "y1" .height 0 y1 ∧
      LengthRead u vb attrs "x2" .width (gradWidth u vb) x2 ∧ LengthRead u vb attrs "y2" .height 0 y2 := by
  have p0 := percent_of (neg := false) (ip := ['0']) (by decide) (by decide) "0%".toList (by decide)
  have v0 : (Spelling.value ⟨false, ['0'], none, none⟩) = 0 := by decide +kernel
  have v100 : (Spelling.value ⟨false, "100".toList, none, none⟩) = 100 := by decide +kernel
  have p100 := percent_of (neg := false) (ip := "100".toList) (by decide) (by decide) "100%".toList (by decide)
  generalize hN : "linearGradient".toList = N at h
  cases h with
  | linear h1 h2 h3 h4 =>
    refine ⟨_, _, _, _, rfl, gradLen_read h1 ?_, gradLen_read h2 ?_, gradLen_read h3 ?_, gradLen_read h4 ?_⟩
    · rw [percent_len p0, v0]; congr 1; norm_num
    · rw [percent_len p0, v0]; congr 1; norm_num
    · rw [percent_len p100, v100]; congr 1; norm_num [gradExtent]
    · have := (C03_units_exact ⟨false, ['0'], none, none⟩ p0.1 (u := []) (f := 1) (by decide) (w := []) (w' := []) (w'' := [])
        (fun _ h => nomatch h) (fun _ h => nomatch h) (fun _ h => nomatch h) (percentBox u vb) .height).2
      rw [v0] at this
      rw [show "0".toList = [] ++ (Spelling.text ⟨false, ['0'], none, none⟩ ++ [] ++ []) ++ [] by decide, this]
      congr 1; norm_num
  | radial h1 h2 h3 h4 h5 h6 => exact absurd hN (by decide)

/-- C40 in exact arithmetic, radial gradients: centre and radius are 50% unless given, the focal point is at the centre unless
given. -/
theorem C40_radial {u : GradientUnits} {vb : Bounds ℝ} {attrs : List Attr} {d : Direction ℝ}
    (h : DirectionOf (percentBox u vb) attrs "radialGradient".toList d) :
    ∃ cx cy fx fy r fr, d = .radial cx cy fx fy r fr ∧
      LengthRead u vb attrs "cx" .width (gradWidth u vb / 2) cx ∧ LengthRead u vb attrs "cy" .height (gradHeight u vb / 2) cy ∧
      LengthRead u vb attrs "fx" .width cx fx ∧ LengthRead u vb attrs "fy" .height cy fy ∧
      LengthRead u vb attrs "r" .diag (gradDiag u vb / 2) r := by
  have p50 := percent_of (neg := false) (ip := "50".toList) (by decide) (by decide) "50%".toList (by decide)
  have v50 : (Spelling.value ⟨false, "50".toList, none, none⟩) = 50 := by decide +kernel
  generalize hN : "radialGradient".toList = N at h
  cases h with
  | linear h1 h2 h3 h4 => exact absurd hN (by decide)
  | radial h1 h2 h3 h4 h5 h6 =>
    refine ⟨_, _, _, _, _, _, rfl, gradLen_read h1 ?_, gradLen_read h2 ?_, gradLen_read h3 h1, gradLen_read h4 h2, gradLen_read h5 ?_⟩
    · rw [percent_len p50, v50]; congr 1; norm_num [gradExtent]; ring
    · rw [percent_len p50, v50]; congr 1; norm_num [gradExtent]; ring
    · rw [percent_len p50, v50]; congr 1; norm_num [gradExtent]; ring

/-- C40 in documents, in exact arithmetic: `u` are the units of the attribute list and `vb` is the view box where the gradient
begins. Partial as `C38_paint_partial`. -/
theorem C40_document_partial {fuel : Nat} {m : ErrorMode} {K : PaintKind} {pre post : List Token} {e : Elem} {t : GradientText}
    {p : SvgPath ℝ} (h : PaintedBy fuel m K pre e post t p) :
    let u := unitsOf t.attrs
    let vb := viewBoxAfter (F := ℝ) fuel m t.before
    ∃ g d, K.of p.style = some (.gradient g) ∧ g.direction = some d ∧ g.units = u ∧
      ((t.name = "linearGradient".toList ∧ ∃ x1 y1 x2 y2, d = .linear x1 y1 x2 y2 ∧
        LengthRead u vb t.attrs "x1" .width 0 x1 ∧ LengthRead u vb t.attrs "y1" .height 0 y1 ∧
        LengthRead u vb t.attrs "x2" .width (gradWidth u vb) x2 ∧ LengthRead u vb t.attrs "y2" .height 0 y2) ∨
      (t.name = "radialGradient".toList ∧ ∃ cx cy fx fy r fr, d = .radial cx cy fx fy r fr ∧
        LengthRead u vb t.attrs "cx" .width (gradWidth u vb / 2) cx ∧ LengthRead u vb t.attrs "cy" .height (gradHeight u vb / 2) cy ∧
        LengthRead u vb t.attrs "fx" .width cx fx ∧ LengthRead u vb t.attrs "fy" .height cy fy ∧
        LengthRead u vb t.attrs "r" .diag (gradDiag u vb / 2) r)) := by
  intro u vb
  obtain ⟨g, d, h1, h2, h3, h4⟩ := C40_direction_partial h
  refine ⟨g, d, h1, h2, h3, ?_⟩
  have hn : t.name = "linearGradient".toList ∨ t.name = "radialGradient".toList := by
    generalize t.name = N at h4
    cases h4
    · exact .inl rfl
    · exact .inr rfl
  rcases hn with hn | hn
  · exact .inl ⟨hn, C40_linear (by rw [hn] at h4; exact h4)⟩
  · exact .inr ⟨hn, C40_radial (by rw [hn] at h4; exact h4)⟩

end GoSvg

namespace GoSvg

open Spec

section Examples

attribute [local instance] asciiEnv
attribute [local instance] dummyLibm

/-- A reference to `g`, the first time with one of its stops, then with both. -/
def gradDoc : List Token :=
  [.start "svg".toList (attrsOf [("viewBox", "0 0 100 50")]),
   .start "linearGradient".toList (attrsOf [("x2", "50%"), ("id", "g"), ("gradientUnits", "userSpaceOnUse")])] ++
  elem "stop" [("offset", "0")] ++ elem "stop" [("offset", "1"), ("style", "stop-color:blue;stop-opacity:0.5")] ++
  [.stop "linearGradient".toList, .start "g".toList (attrsOf [("fill", "red")])]

def gradRect : Elem := ⟨"rect".toList, attrsOf [("width", "5"), ("height", "5"), ("fill", "url(#g)")]⟩

def gradRest : List Token := [.stop "rect".toList, .stop "g".toList] ++ elem "radialGradient" [("id", "g")] (elem "stop" [("stop-color", "green")]) ++
  elem "rect" [("width", "5"), ("height", "5"), ("fill", "url(#g)")] ++ [.stop "svg".toList]

/-- The gradient that the rectangle refers to. -/
def gradText : GradientText where
  before := [.start "svg".toList (attrsOf [("viewBox", "0 0 100 50")])]
  name := "linearGradient".toList
  attrs := attrsOf [("x2", "50%"), ("id", "g"), ("gradientUnits", "userSpaceOnUse")]
  stops := [attrsOf [("offset", "0")], attrsOf [("offset", "1"), ("style", "stop-color:blue;stop-opacity:0.5")]]

/-- C38 - C40 apply: the rectangle is filled with the first gradient, from (0, 0) to (50, 0), its first stop red. -/
theorem C38_example : ∃ (p : SvgPath F64) (g : Gradient F64), PaintedBy 8 .strict .fill gradDoc gradRect gradRest gradText p ∧
    p.style.fillerColor = some (.gradient g) ∧ g.direction = some (.linear (num 0) (num 0) (num 50) (num 0)) ∧
    g.stops.map (·.stopColor) = [some ⟨255, 0, 0, 255⟩, some ⟨0, 0, 255, 255⟩] := by
  have h : (match parse (F := F64) 8 .strict (gradDoc ++ .start gradRect.name gradRect.attrs :: gradRest) .eof with
    | .done (some s) none [] =>
      match s.svgPaths with
      | [p, _] =>
        match p.style.fillerColor with
        | some (.gradient g) => decide (g.direction = some (.linear (num 0) (num 0) (num 50) (num 0)) ∧
          g.stops.map (·.stopColor) = [some ⟨255, 0, 0, 255⟩, some ⟨0, 0, 255, 255⟩])
        | _ => false
      | _ => false
    | _ => false) = true := by decide +kernel
  split at h
  · rename_i s hs
    split at h
    · rename_i p q hp
      split at h
      · rename_i g hg
        refine ⟨p, g, ⟨⟨?_, .inl ?_⟩, ⟨s, _, 0, hs, ?_, ?_⟩, ?_⟩, hg, (of_decide_eq_true h).1, (of_decide_eq_true h).2⟩
        · decide +kernel
        · decide +kernel
        · decide +kernel
        · rw [hp]; rfl
        · refine ⟨"url(#g)".toList, "g".toList, by decide +kernel, ⟨[], [], (fun _ h => nomatch h), (fun _ h => nomatch h), by decide, by decide⟩, ?_⟩
          decide +kernel
      · cases h
    · cases h
  · cases h

/-- C38 does not mean that the order in the document plays no role: with the gradient after it, the rectangle is black. -/
theorem C38_forward : (match parse (F := F64) 8 .strict (elem "svg" [] (elem "rect" [("width", "5"), ("height", "5"), ("fill", "url(#g)")] ++
    elem "linearGradient" [("id", "g")] (elem "stop" [("stop-color", "green")]))) .eof with
    | .done (some s) none [] => decide (s.svgPaths.map (fun p => p.style.fillerColor) = [some (.plain ⟨0, 0, 0, 255⟩)])
    | _ => false) = true := by decide +kernel

/-- C40 applies in exact arithmetic. -/
theorem C40_example : ∃ d : Direction ℝ, DirectionOf (percentBox .userSpaceOnUse ⟨0, 0, 100, 50⟩) (attrsOf [("x2", "25%")]) "linearGradient".toList d := by
  have p0 := percent_of (neg := false) (ip := ['0']) (by decide) (by decide) "0%".toList (by decide)
  have p25 := percent_of (neg := false) (ip := "25".toList) (by decide) (by decide) "25%".toList (by decide)
  have h4 := (C03_units_exact ⟨false, ['0'], none, none⟩ p0.1 (u := []) (f := 1) (by decide) (w := []) (w' := []) (w'' := [])
        (fun _ h => nomatch h) (fun _ h => nomatch h) (fun _ h => nomatch h) (percentBox .userSpaceOnUse ⟨0, 0, 100, 50⟩) .height).2
  exact ⟨_, .linear (percent_len p0 _) (percent_len p0 _) (percent_len p25 _) h4⟩

end Examples

end GoSvg
