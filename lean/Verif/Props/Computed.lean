import Verif.Lemmas.Computed

/-! C63: what the declarations along the open elements come to. -/

set_option linter.unusedSectionVars false

namespace GoSvg

open Spec

variable {F : Type} [GoFloat F] [GoEnv]

/-- C63, keyword properties: the last keyword on the elements from the root to the drawn one is the value; without one it is the initial
value. Words that are no keyword of the property do not count. Partial: balanced documents, see `C24_use_false`. -/
theorem C63_keywords_partial {fuel : Nat} {m : ErrorMode} {pre post : List Token} {name : Str} {attrs : List Attr} {s : Svg F}
    {l : List Msg} {i : Nat} {p : SvgPath F} (hb : Balanced (pre ++ [.start name attrs])) {ch : List Elem}
    (hch : openFrom [] pre = some ch)
    (h : parse (F := F) fuel m (pre ++ .start name attrs :: post) .eof = .done (some s) none l)
    (hd : DrawnBy (F := F) fuel m pre (.start name attrs) i) (hp : s.svgPaths[i]? = some p) :
    p.style.useNonZeroWinding = lastRead (keyword fillRules) true (valuesAlong ["fill-rule"] (⟨name, attrs⟩ :: ch)) ∧
    p.style.join.trailLineCap = lastRead (keyword caps) .butt (valuesAlong ["stroke-linecap"] (⟨name, attrs⟩ :: ch)) ∧
    p.style.join.leadLineCap = lastRead (keyword caps) .nilCap (valuesAlong ["stroke-leadlinecap"] (⟨name, attrs⟩ :: ch)) ∧
    p.style.join.lineJoin = lastRead (keyword joins) .bevel (valuesAlong ["stroke-linejoin"] (⟨name, attrs⟩ :: ch)) ∧
    p.style.join.lineGap = lastRead (keyword gaps) .nilGap (valuesAlong ["stroke-linegap"] (⟨name, attrs⟩ :: ch)) := by
  have hc := drawnBy_cascade (V := fun _ _ => True) (W := fun _ _ _ => True) (fun _ _ _ _ => trivial)
    (fun _ _ _ _ _ _ _ _ _ _ _ => trivial) trivial hb hch h hd hp
  exact ⟨lastSays_read (cascade_last rule_decides hc), lastSays_read (cascade_last cap_decides hc),
    lastSays_read (cascade_last leadCap_decides hc), lastSays_read (cascade_last join_decides hc),
    lastSays_read (cascade_last gap_decides hc)⟩

/-- C63, paints: the last `fill` on the elements from the root to the drawn one is the paint of the fill, if it is a colour or `none`;
likewise `stroke`. Without any the fill is black and there is no stroke. Partial: balanced documents; gradients are C38. -/
theorem C63_paint_partial {fuel : Nat} {m : ErrorMode} {pre post : List Token} {name : Str} {attrs : List Attr} {s : Svg F}
    {l : List Msg} {i : Nat} {p : SvgPath F} (hb : Balanced (pre ++ [.start name attrs])) {ch : List Elem}
    (hch : openFrom [] pre = some ch)
    (h : parse (F := F) fuel m (pre ++ .start name attrs :: post) .eof = .done (some s) none l)
    (hd : DrawnBy (F := F) fuel m pre (.start name attrs) i) (hp : s.svgPaths[i]? = some p) :
    (∀ v col, (valuesAlong ["fill"] (⟨name, attrs⟩ :: ch)).getLast? = some v → PaintText v col → p.style.fillerColor = col.map .plain) ∧
    (valuesAlong ["fill"] (⟨name, attrs⟩ :: ch) = [] → p.style.fillerColor = some (.plain ⟨0, 0, 0, 255⟩)) ∧
    (∀ v col, (valuesAlong ["stroke"] (⟨name, attrs⟩ :: ch)).getLast? = some v → PaintText v col → p.style.linerColor = col.map .plain) ∧
    (valuesAlong ["stroke"] (⟨name, attrs⟩ :: ch) = [] → p.style.linerColor = none) := by
  have hc := drawnBy_cascade (V := fun _ _ => True) (W := fun _ _ _ => True) (fun _ _ _ _ => trivial)
    (fun _ _ _ _ _ _ _ _ _ _ _ => trivial) trivial hb hch h hd hp
  have h1 := cascade_last fill_decides hc
  have h2 := cascade_last stroke_decides hc
  rw [List.filter_eq_self.2 (fun _ _ => rfl)] at h1 h2
  refine ⟨?_, ?_, ?_, ?_⟩
  · intro v col hv ht
    obtain ⟨hr, hn⟩ := paintText_read ht
    obtain ⟨col', e1, e2⟩ := lastSays_some h1 hv hn
    rw [hr] at e1; cases e1; exact e2
  · intro hv
    rw [hv] at h1; exact lastSays_nil h1
  · intro v col hv ht
    obtain ⟨hr, hn⟩ := paintText_read ht
    obtain ⟨col', e1, e2⟩ := lastSays_some h2 hv hn
    rw [hr] at e1; cases e1; exact e2
  · intro hv
    rw [hv] at h2; exact lastSays_nil h2

/-- The values other than `none`. -/
def someDashes (vs : List Str) : List Str := vs.filter fun v => v ≠ "none".toList

/-- C63, lengths, for every arithmetic: the last value below the root is the one that counts, and percentages of it refer to the view box of
the drawing. Partial: balanced documents with one `svg` only, see `C24_svg_false` and `C24_use_false`. -/
theorem C63_lengths_partial {root e : Elem} {rel : List Elem} {lead body post : List Token} (hw : Within root rel e lead body)
    (hpost : ∀ attrs, Token.start "svg".toList attrs ∉ post) {fuel : Nat} {m : ErrorMode} {s : Svg F} {l : List Msg} {i : Nat} {p : SvgPath F}
    (h : parse (F := F) fuel m (lead ++ .start root.name root.attrs :: (body ++ .start e.name e.attrs :: post)) .eof = .done (some s) none l)
    (hd : DrawnBy (F := F) fuel m (lead ++ .start root.name root.attrs :: body) (.start e.name e.attrs) i)
    (hp : s.svgPaths[i]? = some p) :
    (∀ v, (valuesAlong ["stroke-width"] (e :: rel)).getLast? = some v → resolveUnit s.viewBox v .width = .ok p.style.lineWidth) ∧
    (∀ v, (valuesAlong ["stroke-dashoffset"] (e :: rel)).getLast? = some v → resolveUnit s.viewBox v .diag = .ok p.style.dash.dashOffset) ∧
    (∀ v, (someDashes (valuesAlong ["stroke-dasharray"] (e :: rel))).getLast? = some v →
      parseDashes s.viewBox (splitOnCommaOrSpace v) = .ok p.style.dash.dash) ∧
    (valuesAlong ["stroke-width"] (e :: (rel ++ [root])) = [] → p.style.lineWidth = num 2) ∧
    (valuesAlong ["stroke-dashoffset"] (e :: (rel ++ [root])) = [] → p.style.dash.dashOffset = num 0) ∧
    (someDashes (valuesAlong ["stroke-dasharray"] (e :: (rel ++ [root]))) = [] → p.style.dash.dash = []) := by
  obtain ⟨c0, h0, hc⟩ := within_cascade hw h hd hp
  have hbox := within_box hw hpost h h0
  rw [← hbox, ← List.cons_append] at hc
  have split : ∀ k : String, valuesAlong [k] (e :: (rel ++ [root])) = valuesAlong [k] [root] ++ valuesAlong [k] (e :: rel) := by
    intro k
    rw [← List.cons_append]
    unfold valuesAlong
    rw [List.reverse_append, List.flatMap_append]
  obtain ⟨x1, a1, b1⟩ := cascade_box width_decides hc
  obtain ⟨x2, a2, b2⟩ := cascade_box dashOffset_decides hc
  obtain ⟨x3, a3, b3⟩ := cascade_box dash_decides hc
  rw [List.filter_eq_self.2 (fun _ _ => rfl)] at a1 b1 a2 b2
  refine ⟨fun v hv => lastSays_some b1 hv, fun v hv => lastSays_some b2 hv, fun v hv => lastSays_some b3 hv, ?_, ?_, ?_⟩
  · intro hv
    rw [split, List.append_eq_nil_iff] at hv
    rw [hv.1] at a1; rw [hv.2] at b1
    rw [lastSays_nil b1, lastSays_nil a1]; rfl
  · intro hv
    rw [split, List.append_eq_nil_iff] at hv
    rw [hv.1] at a2; rw [hv.2] at b2
    rw [lastSays_nil b2, lastSays_nil a2]; rfl
  · intro hv
    rw [someDashes, split, List.filter_append, List.append_eq_nil_iff] at hv
    rw [hv.1] at a3; rw [hv.2] at b3
    rw [lastSays_nil b3, lastSays_nil a3]; rfl

theorem getLast_below {vs ws : List Str} {v : Str} (h : (vs ++ ws).getLast? = some v) :
    ws.getLast? = some v ∨ ws = [] ∧ vs.getLast? = some v := by
  rw [List.getLast?_append] at h
  cases hw : ws.getLast? with
  | some w => rw [hw] at h; exact .inl (by simpa using h)
  | none =>
    rw [hw] at h
    exact .inr ⟨List.getLast?_eq_none_iff.1 hw, by simpa using h⟩

/-- C63, lengths in exact arithmetic: the last `stroke-width` on the elements from the root to the drawn one is the width, `2` when there
is none; likewise `stroke-dashoffset`, initially 0; the last dash array other than `none`, initially empty; the last `stroke-miterlimit`,
initially 4, in units of 1/64. Percentages are those of the drawing's view box. Partial: balanced documents with one `svg` only, and
percentages on the root itself are excepted, see `C63_root_percent_false`. -/
theorem C63_exact_partial {root e : Elem} {rel : List Elem} {lead body post : List Token} (hw : Within root rel e lead body)
    (hpost : ∀ attrs, Token.start "svg".toList attrs ∉ post) {fuel : Nat} {m : ErrorMode} {s : Svg ℝ} {l : List Msg} {i : Nat} {p : SvgPath ℝ}
    (h : parse fuel m (lead ++ .start root.name root.attrs :: (body ++ .start e.name e.attrs :: post)) .eof = .done (some s) none l)
    (hd : DrawnBy (F := ℝ) fuel m (lead ++ .start root.name root.attrs :: body) (.start e.name e.attrs) i)
    (hp : s.svgPaths[i]? = some p) :
    (∀ v x, (valuesAlong ["stroke-width"] (e :: (rel ++ [root]))).getLast? = some v → LengthText s.viewBox .width v x →
      (valuesAlong ["stroke-width"] (e :: rel) ≠ [] ∨ '%' ∉ v) → p.style.lineWidth = x) ∧
    (∀ v x, (valuesAlong ["stroke-dashoffset"] (e :: (rel ++ [root]))).getLast? = some v → LengthText s.viewBox .diag v x →
      (valuesAlong ["stroke-dashoffset"] (e :: rel) ≠ [] ∨ '%' ∉ v) → p.style.dash.dashOffset = x) ∧
    (∀ (d : CommaList) (xs : List ℝ), (someDashes (valuesAlong ["stroke-dasharray"] (e :: (rel ++ [root])))).getLast? = some d.text → d.WF →
      List.Forall₂ (fun i x => LengthText s.viewBox .diag i.2 x) d.items xs →
      (someDashes (valuesAlong ["stroke-dasharray"] (e :: rel)) ≠ [] ∨ ∀ i ∈ d.items, '%' ∉ i.2) → p.style.dash.dash = xs) ∧
    (∀ v x, (valuesAlong ["stroke-miterlimit"] (e :: (rel ++ [root]))).getLast? = some v → LengthText s.viewBox .diag v x → '%' ∉ v →
      InFixRange x → IsTrunc (x * 64) p.style.join.miterLimit) ∧
    (valuesAlong ["stroke-width"] (e :: (rel ++ [root])) = [] → p.style.lineWidth = 2) ∧
    (valuesAlong ["stroke-dashoffset"] (e :: (rel ++ [root])) = [] → p.style.dash.dashOffset = 0) ∧
    (someDashes (valuesAlong ["stroke-dasharray"] (e :: (rel ++ [root]))) = [] → p.style.dash.dash = []) ∧
    (valuesAlong ["stroke-miterlimit"] (e :: (rel ++ [root])) = [] → p.style.join.miterLimit = 4 * 64) := by
  obtain ⟨c0, h0, hc⟩ := within_cascade hw h hd hp
  have hbox := within_box hw hpost h h0
  obtain ⟨-, -, -, z1, z2, z3⟩ := C63_lengths_partial hw hpost h hd hp
  have hm := cascade_last miter_decides hc
  rw [← hbox, ← List.cons_append] at hc
  have split : ∀ k : String, valuesAlong [k] (e :: (rel ++ [root])) = valuesAlong [k] [root] ++ valuesAlong [k] (e :: rel) := by
    intro k
    rw [← List.cons_append]
    unfold valuesAlong
    rw [List.reverse_append, List.flatMap_append]
  obtain ⟨x1, a1, b1⟩ := cascade_box width_decides hc
  obtain ⟨x2, a2, b2⟩ := cascade_box dashOffset_decides hc
  obtain ⟨x3, a3, b3⟩ := cascade_box dash_decides hc
  rw [List.filter_eq_self.2 (fun _ _ => rfl)] at a1 b1 a2 b2 hm
  have len : ∀ {ref : PercRef} {v : Str} {x y z : ℝ} {vs ws : List Str}, LastSays (fun v y => resolveUnit noBox v ref = .ok y) vs z x →
      LastSays (fun v y => resolveUnit s.viewBox v ref = .ok y) ws x y → ∀ w, (vs ++ ws).getLast? = some v → LengthText s.viewBox ref v w →
      (ws ≠ [] ∨ '%' ∉ v) → y = w := by
    intro ref v x y z vs ws ha hb w hv ht hp
    rcases getLast_below hv with hv' | ⟨rfl, hv'⟩
    · have := lastSays_some hb hv'
      rw [lengthText_read ht] at this
      cases this; rfl
    · have hp : '%' ∉ v := hp.resolve_left (fun h => h rfl)
      have := lastSays_some ha hv'
      rw [lengthText_read (lengthText_box ht hp _)] at this
      rw [lastSays_nil hb]
      cases this; rfl
  have dashes : ∀ {vb : Bounds ℝ} {d : CommaList} {xs ys : List ℝ}, d.WF → List.Forall₂ (fun i x => LengthText vb .diag i.2 x) d.items xs →
      parseDashes vb (splitOnCommaOrSpace d.text) = .ok ys → ys = xs := by
    intro vb d xs ys hw hf hr
    rw [splitOnCommaOrSpace_text d hw] at hr
    have : parseDashes vb (d.items.map (·.2)) = .ok xs := by
      apply parseDashes_ok
      clear hr hw
      generalize d.items = is at hf
      induction hf with
      | nil => rfl
      | cons a b ih => rw [List.map_cons, List.map_cons, List.map_cons, ih, lengthText_read a]
    rw [this] at hr
    cases hr; rfl
  refine ⟨?_, ?_, ?_, ?_, fun hv => (z1 hv).trans (by show ((2 : ℚ) : ℝ) = 2; norm_num), fun hv => (z2 hv).trans (by show ((0 : ℚ) : ℝ) = 0; norm_num),
    z3, ?_⟩
  · intro v x hv ht hp
    rw [split] at hv
    exact len a1 b1 x hv ht hp
  · intro v x hv ht hp
    rw [split] at hv
    exact len a2 b2 x hv ht hp
  · intro d xs hv hwf hf hp
    rw [someDashes, split, List.filter_append] at hv
    rcases getLast_below hv with hv | ⟨hn, hv⟩
    · exact dashes hwf hf (lastSays_some b3 hv)
    · have hp := hp.resolve_left (fun h => h hn)
      have hf' : List.Forall₂ (fun (i : Str × Str) x => LengthText noBox .diag i.2 x) d.items xs := by
        clear hv hwf
        generalize d.items = is at hf hp
        induction hf with
        | nil => exact .nil
        | cons a b ih =>
          exact .cons (lengthText_box a (hp _ List.mem_cons_self) _) (ih fun i hi => hp i (List.mem_cons_of_mem _ hi))
      rw [hn] at b3
      rw [lastSays_nil b3]
      exact dashes hwf hf' (lastSays_some a3 hv)
  · intro v x hv ht hp hr
    have := lastSays_some hm hv
    cases ht with
    | unit n hn hu hw hw' hw'' =>
      rw [(C03_units_exact n hn hu hw hw' hw'' s.viewBox .diag).1] at this
      have e : toFix ((n.value : ℝ) * _) = _ := Res.ok.inj this
      rw [← e]
      exact (C05_quantised _ hr).1
    | percent n hn hw hw' hw'' => exact absurd (by simp) hp
  · intro hv
    rw [hv] at hm
    rw [lastSays_nil hm]
    show toFix (num 4 : ℝ) = 4 * 64
    have h4 : (num 4 : ℝ) = 4 := by show ((4 : ℚ) : ℝ) = 4; norm_num
    rw [h4]
    have hin : InFixRange 4 := by unfold InFixRange; norm_num
    refine isTrunc_unique (C05_quantised 4 hin).1 ⟨fun _ => by norm_num, fun h => absurd h (by norm_num)⟩

end GoSvg

namespace GoSvg

open Spec

section Examples

attribute [local instance] asciiEnv
attribute [local instance] dummyLibm

/-- A root that declares a cap, a dash array, a miter limit and a percentage. -/
def coRoot : Elem := ⟨"svg".toList, attrsOf [("viewBox", "0 0 30 40"), ("stroke-linecap", "round"), ("stroke-dasharray", "1, 2mm"),
  ("stroke-miterlimit", "1.5"), ("stroke-width", "10%")]⟩

/-- A group. -/
def coGroup : Elem := ⟨"g".toList, attrsOf [("style", "stroke-dashoffset: 10% ;fill:RED"), ("stroke-linejoin", "miter"), ("fill-rule", "evenodd")]⟩

/-- A line. -/
def coLine : Elem := ⟨"line".toList, attrsOf [("x2", "5"), ("stroke", "#0F8"), ("fill-rule", "nonzero"), ("stroke-dasharray", "none")]⟩

def coPost : List Token := [.stop "line".toList, .stop "g".toList, .stop "svg".toList]

theorem co_within : Within coRoot [coGroup] coLine [] [tagOf coGroup] :=
  ⟨by decide, by decide +kernel, noSvg_of (by decide +kernel), by decide +kernel, .inl (by decide +kernel)⟩

/-- A document in which the declarations of three elements meet: what `C63_keywords_partial`, `C63_paint_partial` and `C63_lengths_partial` say of it. -/
theorem C63_example : ∃ s p, parse (F := F64) 8 .strict ([] ++ tagOf coRoot :: ([tagOf coGroup] ++ tagOf coLine :: coPost)) .eof = .done (some s) none [] ∧
    DrawnBy (F := F64) 8 .strict ([] ++ tagOf coRoot :: [tagOf coGroup]) (tagOf coLine) 0 ∧ s.svgPaths[0]? = some p ∧
    p.style.useNonZeroWinding = true ∧ p.style.join.trailLineCap = .round ∧ p.style.join.leadLineCap = .nilCap ∧
    p.style.join.lineJoin = .miter ∧ p.style.fillerColor = some (.plain ⟨255, 0, 0, 255⟩) ∧ p.style.linerColor = some (.plain ⟨0, 255, 136, 255⟩) ∧
    p.style.dash.dash.length = 2 ∧ p.style.join.miterLimit = 96 := by
  have h : (match parse (F := F64) 8 .strict ([] ++ tagOf coRoot :: ([tagOf coGroup] ++ tagOf coLine :: coPost)) .eof with
      | .done (some s) none [] => (match s.svgPaths[0]? with
        | some p => decide (p.style.useNonZeroWinding = true ∧ p.style.join.trailLineCap = .round ∧ p.style.join.leadLineCap = .nilCap ∧
            p.style.join.lineJoin = .miter ∧ p.style.fillerColor = some (.plain ⟨255, 0, 0, 255⟩) ∧ p.style.linerColor = some (.plain ⟨0, 255, 136, 255⟩) ∧
            p.style.dash.dash.length = 2 ∧ p.style.join.miterLimit = 96)
        | none => false)
      | _ => false) = true := by decide +kernel
  split at h
  · rename_i s hs
    split at h
    · rename_i p hp
      exact ⟨s, p, hs, by decide +kernel, hp, of_decide_eq_true h⟩
    · cases h
  · cases h

/-- The same document in exact arithmetic meets the hypotheses of `C63_exact_partial`. -/
theorem C63_exact_example : ∃ s p l, parse (F := ℝ) 8 .strict ([] ++ tagOf coRoot :: ([tagOf coGroup] ++ tagOf coLine :: coPost)) .eof = .done (some s) none l ∧
    DrawnBy (F := ℝ) 8 .strict ([] ++ tagOf coRoot :: [tagOf coGroup]) (tagOf coLine) 0 ∧ s.svgPaths[0]? = some p := by
  have h : (match parse (F := ℝ) 8 .strict ([] ++ tagOf coRoot :: ([tagOf coGroup] ++ tagOf coLine :: coPost)) .eof with
      | .done (some s) none _ => (match s.svgPaths[0]? with | some _ => true | none => false)
      | _ => false) = true := by decide +kernel
  have h2 : DrawnBy (F := ℝ) 8 .strict ([] ++ tagOf coRoot :: [tagOf coGroup]) (tagOf coLine) 0 := by decide +kernel
  split at h
  · rename_i s l hs
    split at h
    · rename_i p hp
      exact ⟨s, p, l, hs, h2, hp⟩
    · cases h
  · cases h

/-- The values of this document that `C63_exact_partial` is about. -/
theorem C63_exact_values :
    (valuesAlong ["stroke-dashoffset"] (coLine :: ([coGroup] ++ [coRoot]))).getLast? = some "10%".toList ∧
    valuesAlong ["stroke-dashoffset"] [coLine, coGroup] ≠ [] ∧
    (someDashes (valuesAlong ["stroke-dasharray"] (coLine :: ([coGroup] ++ [coRoot])))).getLast? = some "1, 2mm".toList ∧
    (valuesAlong ["stroke-miterlimit"] (coLine :: ([coGroup] ++ [coRoot]))).getLast? = some "1.5".toList := by
  decide +kernel

/-- C63 does not hold for percentages on the root element: they are read before its view box is known. The line is 0 wide, not 10% of 30. -/
theorem C63_root_percent_false :
    (valuesAlong ["stroke-width"] (coLine :: ([coGroup] ++ [coRoot]))).getLast? = some "10%".toList ∧
    (svgOf (tagOf coRoot :: tagOf coGroup :: tagOf coLine :: coPost)).map (·.viewBox.w) = some (num 30) ∧
    (styleAt (tagOf coRoot :: tagOf coGroup :: tagOf coLine :: coPost) 0).map (·.lineWidth) = some (num 0) := by
  decide +kernel

end Examples

end GoSvg
