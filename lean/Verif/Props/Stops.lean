import Verif.Spec.Stops
import Verif.Props.Gradients
import Verif.Props.Transforms
import Verif.Lemmas.Computed

/-! C64: the stops, the spread method and the transform of a gradient. -/

set_option linter.unusedSectionVars false

namespace GoSvg

open Spec

variable [GoEnv]

theorem numberText_read {v : Str} {x : ℝ} (h : NumberText v x) : (parseBasicFloat v : Res ℝ) = .ok x := by
  obtain ⟨n, hn, hw, hw'⟩ := h
  rename_i w w'
  have := (C03_units_exact n hn (u := []) (f := 1) (by decide) (w := w) (w' := []) (w'' := w') hw (fun _ h => nomatch h) hw' ⟨0, 0, 0, 0⟩ .width).1
  simpa using this

theorem spelling_trimmed {n : Spelling} (hn : n.WF) : n.text ≠ [] ∧ ∀ c ∈ n.text, isSpace c = false ∧ c ≠ '%' := by
  refine ⟨text_ne hn, fun c hc => ?_⟩
  have := text_numChar hn c hc
  exact ⟨isSpace_numChar this, numChar_ne this (by decide) (by decide) (by decide) (by decide)⟩

theorem fractionText_read {v : Str} {x : ℝ} (h : FractionText v x) : (readFraction v : Res ℝ) = .ok x := by
  cases h with
  | number h =>
    obtain ⟨n, hn, hw, hw'⟩ := h
    rename_i w w'
    obtain ⟨h1, h2⟩ := spelling_trimmed hn
    have ht : Trimmed n.text := ⟨fun c hc => (h2 c (List.mem_of_head? hc)).1, fun c hc => (h2 c (List.mem_of_getLast? hc)).1⟩
    have hs : hasSuffix n.text "%".toList = false := by
      rw [Bool.eq_false_iff]
      intro hsx
      obtain ⟨l, hl⟩ := hasSuffix_iff.1 hsx
      exact (h2 '%' (by rw [← hl]; simp)).2 rfl
    have hr : (parseBasicFloat n.text : Res ℝ) = .ok n.value := by
      have := numberText_read (.mk n hn (w := []) (w' := []) (fun _ h => nomatch h) (fun _ h => nomatch h))
      simpa using this
    unfold readFraction
    rw [trimSpace_pad hw hw' ht]
    dsimp only
    rw [if_neg (by rw [hs]; decide)]
    dsimp only
    rw [hr]
    simp
  | percent n hn hw hw' hw'' =>
    rename_i w w' w''
    obtain ⟨h1, h2⟩ := spelling_trimmed hn
    have ht : Trimmed (n.text ++ w' ++ "%".toList) := by
      constructor
      · intro c hc
        cases hx : n.text with
        | nil => exact absurd hx h1
        | cons a as => rw [hx] at hc; cases hc; exact (h2 _ (by rw [hx]; exact List.mem_cons_self)).1
      · intro c hc
        have : (n.text ++ w' ++ "%".toList).getLast? = some '%' := List.getLast?_concat ..
        rw [this] at hc; cases hc; decide
    have hs : hasSuffix (n.text ++ w' ++ "%".toList) "%".toList = true := hasSuffix_iff.2 (List.suffix_append _ _)
    have hr : (parseBasicFloat (n.text ++ w') : Res ℝ) = .ok n.value := by
      have := numberText_read (.mk n hn (w := []) (w' := w') (fun _ h => nomatch h) hw')
      simpa using this
    unfold readFraction
    rw [trimSpace_pad hw hw'' ht]
    have hx : trimSuffix (n.text ++ w' ++ "%".toList) "%".toList = n.text ++ w' := by
      unfold trimSuffix
      rw [hs, if_pos rfl, List.length_append, Nat.add_sub_cancel, List.take_left']
      rfl
    dsimp only
    rw [if_pos hs, hx]
    dsimp only
    rw [hr]
    simp

theorem readLast_ok {α : Type} {read : Str → Res α} {d x y : α} {vs : List Str} {v : Str} (h : ReadLast read d vs x) (hv : vs.getLast? = some v)
    (hr : read v = .ok y) : x = y := by
  unfold ReadLast at h
  rw [hv] at h
  exact Res.ok.inj (h.symm.trans hr)

theorem readLast_nil {α : Type} {read : Str → Res α} {d x : α} {vs : List Str} (h : ReadLast read d vs x) (hv : vs = []) : x = d := by
  subst hv; exact h

/-- C64, partial: the gradient that paints a path has as many stops as stand in the document between its start tag and the path, in the
same order, and each is what its attributes say. The spread method is the one declared, `pad` by default. Missing: documents that use
incomplete definitions (see C38). -/
theorem C64_stops_partial {fuel : Nat} {m : ErrorMode} {K : PaintKind} {pre post : List Token} {e : Elem} {t : GradientText}
    {p : SvgPath ℝ} (h : PaintedBy fuel m K pre e post t p) :
    ∃ (g : Gradient ℝ) (q : Option (Pattern ℝ)), K.of p.style = some (.gradient g) ∧
      PaintAlong fuel m K.attr K.initial (framesOf pre) q ∧
      List.Forall₂ (fun attrs s => StopSays attrs (paintColor q) s) t.stops g.stops ∧ g.spread = spreadOf t.attrs := by
  obtain ⟨g, q, h1, h2, h3⟩ := C38_reference_partial h
  refine ⟨_, q, h3, h2, ?_, h1.spread⟩
  show List.Forall₂ _ t.stops (g.stops.map _)
  rw [List.forall₂_map_right_iff]
  refine h1.stops.imp fun a s hs => ⟨fun hv => ?_, fun v x hv hx => ?_, fun hv => ?_, fun v x hv hx => ?_, fun hv => ?_, fun v c hv hx => ?_⟩
  · have := readLast_nil hs.offset hv
    simpa using this
  · exact readLast_ok hs.offset hv (fractionText_read hx)
  · have := readLast_nil hs.opacity hv
    simpa using this
  · exact readLast_ok hs.opacity hv (numberText_read hx)
  · have := readLast_nil hs.color hv
    show some (s.stopColor.getD _) = _
    rw [this]; rfl
  · have := readLast_ok hs.color hv (paintText_read hx).1
    show some (s.stopColor.getD _) = _
    rw [this]

/-- C64, partial: without `gradientTransform` the matrix of the gradient is the identity. With a list of functions that is read correctly
(`ReadRight`, see C21) it maps points as the functions say, provided that no `transform` is declared on the gradient or on an element
around it. Missing: the other lists, for which C21 fails; gradients in transformed elements, for which this is false
(`C64_transform_false`). -/
theorem C64_transform_partial {fuel : Nat} {m : ErrorMode} {K : PaintKind} {pre post : List Token} {e : Elem} {t : GradientText}
    {p : SvgPath ℝ} (h : PaintedBy fuel m K pre e post t p) :
    ∃ g : Gradient ℝ, K.of p.style = some (.gradient g) ∧
      (valuesNamed "gradientTransform" t.attrs = [] → ∀ x, affine g.matrix x = x) ∧
      (t.Untransformed → ∀ (l : List (FnText ℝ)) (fs : List Fn) (last : Str), (∀ f ∈ l, f.WF) → MeansList l fs → ReadRight l → Blank last →
        (valuesNamed "gradientTransform" t.attrs).getLast? = some (listText l last) → ∀ x, affine g.matrix x = applyList fs x) := by
  obtain ⟨g, q, h1, -, h3⟩ := C38_reference_partial h
  refine ⟨_, h3, fun hn x => ?_, fun hU l fs last hl hm hr hb hv x => ?_⟩
  · show affine g.matrix x = x
    rw [h1.matrix hn]
    exact C20_identity_map x
  · show affine g.matrix x = _
    have hp := h1.transform hU _ hv
    rw [parseTransform_list l hl hb (c := initCursor 0) (top := defaultStyle) (rest := []) rfl] at hp
    obtain ⟨m', e1, e2⟩ := stepAll_identity hm hr
    have : g.matrix = m' := by
      have e1' : stepAll (defaultStyle (F := ℝ)).transform l.reverse = .ok m' := e1
      rw [e1'] at hp
      exact (Res.ok.inj hp).symm
    rw [this]
    exact e2 x

end GoSvg

namespace GoSvg

open Spec

section Examples

attribute [local instance] asciiEnv
attribute [local instance] dummyLibm

def stopDoc : List Token :=
  [.start "svg".toList (attrsOf [("viewBox", "0 0 100 50")]),
   .start "linearGradient".toList (attrsOf [("id", "g"), ("spreadMethod", "reflect"), ("gradientTransform", "translate(1,2)")])] ++
  elem "stop" [("offset", "25%")] ++ elem "stop" [("offset", "0.5"), ("style", "stop-color:#00f;stop-opacity:0.5")] ++
  [.stop "linearGradient".toList, .start "g".toList (attrsOf [("fill", "red")])]

def stopPath : Elem := ⟨"path".toList, attrsOf [("d", "M0,0L5,5"), ("fill", "url(#g)")]⟩

def stopRest : List Token := [.stop "path".toList, .stop "g".toList, .stop "svg".toList]

def stopText : GradientText where
  before := [.start "svg".toList (attrsOf [("viewBox", "0 0 100 50")])]
  name := "linearGradient".toList
  attrs := attrsOf [("id", "g"), ("spreadMethod", "reflect"), ("gradientTransform", "translate(1,2)")]
  stops := [attrsOf [("offset", "25%")], attrsOf [("offset", "0.5"), ("style", "stop-color:#00f;stop-opacity:0.5")]]

set_option maxRecDepth 100000 in
/-- The hypotheses of C64 hold in a document. -/
theorem C64_example : ∃ p : SvgPath ℝ, PaintedBy 8 .strict .fill stopDoc stopPath stopRest stopText p := by
  have h : (match parse (F := ℝ) 8 .strict (stopDoc ++ .start stopPath.name stopPath.attrs :: stopRest) .eof with
    | .done (some s) none [] =>
      match s.svgPaths with
      | [_] => true
      | _ => false
    | _ => false) = true := by decide +kernel
  split at h
  · rename_i s hs
    split at h
    · rename_i p hp
      refine ⟨p, ⟨?_, .inl ?_⟩, ⟨s, _, 0, hs, ?_, ?_⟩, ?_⟩
      · decide +kernel
      · decide +kernel
      · decide +kernel
      · rw [hp]; rfl
      · refine ⟨"url(#g)".toList, "g".toList, by decide +kernel, ⟨[], [], (fun _ h => nomatch h), (fun _ h => nomatch h), by decide, by decide⟩, ?_⟩
        decide +kernel
    · cases h
  · cases h

/-- What C64 says there: two stops, at 1/4 and 1/2, red and blue, the second one half transparent; shifted by (1, 2). -/
theorem C64_values {p : SvgPath ℝ} (h : PaintedBy 8 .strict .fill stopDoc stopPath stopRest stopText p) :
    ∃ g s1 s2, p.style.fillerColor = some (.gradient g) ∧ g.stops = [s1, s2] ∧ g.spread = .reflect ∧ s1.offset = 1 / 4 ∧ s1.opacity = 1 ∧
      s2.offset = 1 / 2 ∧ s2.opacity = 1 / 2 ∧ s2.stopColor = some ⟨0, 0, 255, 255⟩ ∧ ∀ x, affine g.matrix x = (x.1 + 1, x.2 + 2) := by
  obtain ⟨g, q, h1, -, h2, h3⟩ := C64_stops_partial h
  obtain ⟨g', h1', -, h4⟩ := C64_transform_partial h
  have hg : g' = g := by rw [h1] at h1'; cases h1'; rfl
  subst hg
  generalize hs : stopText.stops = ts at h2
  rw [stopText] at hs
  subst hs
  cases hgs : g'.stops with
  | nil => rw [hgs] at h2; cases h2
  | cons s1 r =>
    rw [hgs] at h2
    obtain _ | ⟨a1, h2⟩ := h2
    obtain _ | ⟨a2, h2⟩ := h2
    cases h2
    rename_i s2
    have q25 : FractionText "25%".toList (((Spelling.mk false "25".toList none none).value : ℝ) / 100) :=
      .percent ⟨false, "25".toList, none, none⟩ (by decide +kernel) (w := []) (w' := []) (w'' := []) (fun _ h => nomatch h) (fun _ h => nomatch h) (fun _ h => nomatch h)
    have q5 : NumberText "0.5".toList ((Spelling.mk false "0".toList (some "5".toList) none).value : ℝ) :=
      .mk ⟨false, "0".toList, some "5".toList, none⟩ (by decide +kernel) (w := []) (w' := []) (fun _ h => nomatch h) (fun _ h => nomatch h)
    have v25 : (Spelling.mk false "25".toList none none).value = 25 := by decide +kernel
    have v5 : (Spelling.mk false "0".toList (some "5".toList) none).value = 1 / 2 := by decide +kernel
    rw [v25] at q25
    rw [v5] at q5
    refine ⟨g', s1, s2, h1, hgs, h3, ?_, ?_, ?_, ?_, ?_, fun x => ?_⟩
    · rw [a1.offset _ _ (by decide +kernel) q25]; norm_num
    · exact a1.solid (by decide +kernel)
    · rw [a2.offset _ _ (by decide +kernel) (.number q5)]; norm_num
    · rw [a2.opacity _ _ (by decide +kernel) q5]; norm_num
    · exact a2.color "#00f".toList _ (by decide +kernel) (.short (x := '0') (y := '0') (z := 'f') (r := 0) (g := 0) (b := 15) (.inl (by decide)) (.inl (by decide)) (.inl (by decide)))
    · have := h4 ⟨by decide +kernel, by decide +kernel⟩ [fnText "translate" "1,2" [1, 2]] [.translate 1 2] [] (by simpa using ex_translate)
        (.cons (.translate (by decide)) .nil) ⟨by simp, fun t ht => by simp at ht; subst ht; exact .inl (.inl ⟨by decide, rfl⟩)⟩ (fun _ h => nomatch h)
        (by decide +kernel) x
      rw [this]
      simp [applyList, Fn.apply]

/-- Without `Untransformed` the second part of C64 is false: the transform of the group around a gradient is part of its matrix, which
should be the shift by (1, 0). -/
theorem C64_transform_false : (match parse (F := F64) 8 .strict (elem "svg" [] (elem "g" [("transform", "translate(10,0)")]
      (elem "linearGradient" [("id", "g"), ("gradientTransform", "translate(1,0)")] (elem "stop" [("stop-color", "green")])) ++
    elem "rect" [("width", "5"), ("height", "5"), ("fill", "url(#g)")])) .eof with
    | .done (some s) none [] => decide (s.svgPaths.map (fun p => match p.style.fillerColor with
        | some (.gradient g) => some g.matrix
        | _ => none) = [some ⟨num 1, num 0, num 0, num 1, num 11, num 0⟩])
    | _ => false) = true := by decide +kernel

/-- The opacity of a stop is read without regard to a percent sign: 50% comes out as 50. -/
theorem C64_opacity_percent_false : (match parse (F := F64) 8 .strict (elem "svg" [] (
      elem "linearGradient" [("id", "g")] (elem "stop" [("stop-color", "green"), ("stop-opacity", "50%")]) ++
    elem "rect" [("width", "5"), ("height", "5"), ("fill", "url(#g)")])) .eof with
    | .done (some s) none [] => decide (s.svgPaths.map (fun p => match p.style.fillerColor with
        | some (.gradient g) => g.stops.map (·.opacity)
        | _ => []) = [[num 50]])
    | _ => false) = true := by decide +kernel

end Examples

end GoSvg
