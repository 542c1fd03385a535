import Verif.Lemmas.Attrs
import Verif.Lemmas.Docs
import Verif.Props.Arcs
import Verif.Props.Matrix
import Verif.Props.Numbers

/-! C15, C16, C17, C57: basic shapes. -/

set_option linter.unusedSectionVars false

namespace GoSvg

open Spec
open SM (get modify lift)

variable {F : Type} [GoFloat F] [GoEnv]

/-- An element function that only adds operations. -/
theorem start_adds {fuel : Nat} {name : Str} {df : List Attr → CM F Unit} (hn : drawFuncs fuel (useF fuel) name = some df)
    {attrs : List Attr} {c : Cursor F} {st : PathStyle F} (hr : Ready c st) {pc : PathCursor F}
    (hd : df attrs c = (.ok (), { c with pc := pc })) :
    Adds (readStartElement fuel name attrs c) c (if pc.path = [] then [] else [⟨pc.path, st⟩]) := by
  obtain ⟨h1, h2, h3, h4⟩ := hr
  cases hst : c.styleStack with
  | nil => rw [hst] at h4; simp at h4
  | cons s rest =>
    rw [hst, List.head?_cons, Option.some.injEq] at h4
    subst h4
    unfold readStartElement
    simp only [h1, Bool.false_eq_true, false_and, if_false, hn, hd]
    unfold emitPath
    cases hp : pc.path with
    | nil => simp [Adds]
    | cons o os => simp [Adds, h2, hst]

theorem res_inv {α β : Type} {r : Res α} {g : α → β} {b : β} (h : (r >>= fun x => .ok (g x)) = .ok b) :
    ∃ x, r = .ok x ∧ b = g x := by
  cases r with
  | ok x => exact ⟨x, rfl, (Res.ok.inj h).symm⟩
  | err e => cases h
  | panic e => cases h
  | diverge => cases h

/-- One attribute either sets a variable or leaves it alone. -/
macro "shape_attr" f:ident : tactic => `(tactic| (
  intro b a b' h hn
  unfold $f:ident at h
  split_ifs at h <;> first
    | (obtain ⟨x, hx, hb⟩ := res_inv h; subst hb; first | exact hx | rfl
                                                        | (exfalso; rename_i hh; rw [hh] at hn; revert hn; decide))
    | (exfalso; rename_i hh; exact hh hn)
    | (exfalso; rename_i hh; exact hn hh)
    | (exfalso; rename_i hh; rw [hh] at hn; revert hn; decide)
    | (cases h; rfl)
    | (exfalso; simp_all)))

/-! ### C15 -/

/-- How a radius is read: from `r` or from the attribute `n`. -/
def radVal (vb : Bounds F) (ref : PercRef) (a : Attr) : Res F :=
  if a.name = "r".toList then resolveUnit vb a.value .diag else resolveUnit vb a.value ref

theorem circle_rx (vb : Bounds F) {attrs : List Attr}
    (hp : attrs.Pairwise (fun a a' => ¬ ((a.name = "r".toList ∨ a.name = "rx".toList) ∧ (a'.name = "r".toList ∨ a'.name = "rx".toList))))
    {b b' : CircleVars F} (h : Res.loop (circleAttr vb) b attrs = .ok b') :
    (∃ a ∈ attrs, (a.name = "r".toList ∨ a.name = "rx".toList) ∧ radVal vb .width a = .ok b'.rx) ∨
      ((∀ a ∈ attrs, ¬ (a.name = "r".toList ∨ a.name = "rx".toList)) ∧ b'.rx = b.rx) := by
  refine loop_field (fun n => n = "r".toList ∨ n = "rx".toList) CircleVars.rx (radVal vb .width) ?_ ?_ attrs hp b b' h
  · intro b a b' h hn
    rcases hn with hn | hn
    · unfold circleAttr at h
      rw [if_neg (by rw [hn]; decide), if_neg (by rw [hn]; decide), if_pos hn] at h
      obtain ⟨x, hx, hb⟩ := res_inv h
      rw [radVal, if_pos hn, hb]; exact hx
    · unfold circleAttr at h
      rw [if_neg (by rw [hn]; decide), if_neg (by rw [hn]; decide), if_neg (by rw [hn]; decide), if_pos hn] at h
      obtain ⟨x, hx, hb⟩ := res_inv h
      rw [radVal, if_neg (by rw [hn]; decide), hb]; exact hx
  · intro b a b' h hn
    rw [not_or] at hn
    unfold circleAttr at h
    rw [if_neg hn.1, if_neg hn.2] at h
    split_ifs at h
    · obtain ⟨x, hx, hb⟩ := res_inv h; rw [hb]
    · obtain ⟨x, hx, hb⟩ := res_inv h; rw [hb]
    · obtain ⟨x, hx, hb⟩ := res_inv h; rw [hb]
    · cases h; rfl

theorem circle_ry (vb : Bounds F) {attrs : List Attr}
    (hp : attrs.Pairwise (fun a a' => ¬ ((a.name = "r".toList ∨ a.name = "ry".toList) ∧ (a'.name = "r".toList ∨ a'.name = "ry".toList))))
    {b b' : CircleVars F} (h : Res.loop (circleAttr vb) b attrs = .ok b') :
    (∃ a ∈ attrs, (a.name = "r".toList ∨ a.name = "ry".toList) ∧ radVal vb .height a = .ok b'.ry) ∨
      ((∀ a ∈ attrs, ¬ (a.name = "r".toList ∨ a.name = "ry".toList)) ∧ b'.ry = b.ry) := by
  refine loop_field (fun n => n = "r".toList ∨ n = "ry".toList) CircleVars.ry (radVal vb .height) ?_ ?_ attrs hp b b' h
  · intro b a b' h hn
    rcases hn with hn | hn
    · unfold circleAttr at h
      rw [if_neg (by rw [hn]; decide), if_neg (by rw [hn]; decide), if_pos hn] at h
      obtain ⟨x, hx, hb⟩ := res_inv h
      rw [radVal, if_pos hn, hb]; exact hx
    · unfold circleAttr at h
      rw [if_neg (by rw [hn]; decide), if_neg (by rw [hn]; decide), if_neg (by rw [hn]; decide), if_neg (by rw [hn]; decide),
        if_pos hn] at h
      obtain ⟨x, hx, hb⟩ := res_inv h
      rw [radVal, if_neg (by rw [hn]; decide), hb]; exact hx
  · intro b a b' h hn
    rw [not_or] at hn
    unfold circleAttr at h
    rw [if_neg hn.1, if_neg hn.2] at h
    split_ifs at h
    · obtain ⟨x, hx, hb⟩ := res_inv h; rw [hb]
    · obtain ⟨x, hx, hb⟩ := res_inv h; rw [hb]
    · obtain ⟨x, hx, hb⟩ := res_inv h; rw [hb]
    · cases h; rfl

/-- `r` is not given together with `n`. -/
theorem pairwise_r {attrs : List Attr} (hd : Distinct attrs) {n : String}
    (h : (∀ v, ¬ Given attrs "r" v) ∨ ∀ v, ¬ Given attrs n v) :
    attrs.Pairwise (fun a a' => ¬ ((a.name = "r".toList ∨ a.name = n.toList) ∧ (a'.name = "r".toList ∨ a'.name = n.toList))) := by
  have hd' := hd
  unfold Distinct at hd
  rw [List.Nodup, List.pairwise_map] at hd
  refine hd.imp_of_mem fun {a b} ha hb hab ⟨h1, h2⟩ => ?_
  have no : ∀ n : String, (∀ v, ¬ Given attrs n v) → ∀ a ∈ attrs, a.name ≠ n.toList :=
    fun n h a ha hn => h a.value (by rw [Given, ← hn]; exact ha)
  rcases h with h | h
  · exact hab ((h1.resolve_left (no _ h a ha)).trans (h2.resolve_left (no _ h b hb)).symm)
  · exact hab ((h1.resolve_right (no _ h a ha)).trans (h2.resolve_right (no _ h b hb)).symm)

/-- The local variables of a circle or an ellipse. -/
theorem circle_vars {vb : Bounds F} {attrs : List Attr} (hd : Distinct attrs) {cx cy : F} (h1 : Len vb attrs "cx" .width cx)
    (h2 : Len vb attrs "cy" .height cy) {rx ry : F}
    (h3 : Radii vb attrs rx ry) :
    Res.loop (circleAttr vb) ⟨num 0, num 0, num 0, num 0⟩ attrs = .ok ⟨cx, cy, rx, ry⟩ := by
  have no : ∀ n : String, (∀ v, ¬ Given attrs n v) → ∀ a ∈ attrs, a.name ≠ n.toList :=
    fun n h a ha hn => h a.value (by rw [Given, ← hn]; exact ha)
  have tot : ∀ a ∈ attrs, ∀ b, ∃ b', circleAttr vb b a = .ok b' := by
    intro a ha b
    unfold circleAttr
    split
    · rename_i h; rw [len_resolves hd h1 ha h]; exact ⟨_, rfl⟩
    · split
      · rename_i h; rw [len_resolves hd h2 ha h]; exact ⟨_, rfl⟩
      · rcases h3 with ⟨g1, -, g2, g3⟩ | ⟨g1, g2, g3⟩
        · split
          · rename_i h; rw [len_resolves hd g1 ha h]; exact ⟨_, rfl⟩
          · rw [if_neg (no _ g2 a ha), if_neg (no _ g3 a ha)]; exact ⟨_, rfl⟩
        · rw [if_neg (no _ g3 a ha)]
          split
          · rename_i h; rw [len_resolves hd g1 ha h]; exact ⟨_, rfl⟩
          · split
            · rename_i h; rw [len_resolves hd g2 ha h]; exact ⟨_, rfl⟩
            · exact ⟨_, rfl⟩
  obtain ⟨b', hb⟩ := loop_total attrs tot ⟨num 0, num 0, num 0, num 0⟩
  have f1 := loop_field (· = "cx".toList) CircleVars.cx (fun a => resolveUnit vb a.value .width) (step := circleAttr vb)
    (by shape_attr circleAttr) (by shape_attr circleAttr) attrs (distinct_pairwise hd _) _ _ hb
  have f2 := loop_field (· = "cy".toList) CircleVars.cy (fun a => resolveUnit vb a.value .height) (step := circleAttr vb)
    (by shape_attr circleAttr) (by shape_attr circleAttr) attrs (distinct_pairwise hd _) _ _ hb
  have f3 := circle_rx vb (pairwise_r hd (by rcases h3 with ⟨g1, -, g2, g3⟩ | ⟨g1, g2, g3⟩; exacts [.inr g2, .inl g3])) hb
  have f4 := circle_ry vb (pairwise_r hd (by rcases h3 with ⟨g1, -, g2, g3⟩ | ⟨g1, g2, g3⟩; exacts [.inr g3, .inl g3])) hb
  have key : ∀ {n : String} {ref : PercRef} {x y : F}, n.toList ≠ "r".toList →
      ((Len vb attrs "r" .diag x ∧ ∀ v, ¬ Given attrs n v) ∨ (Len vb attrs n ref x ∧ ∀ v, ¬ Given attrs "r" v)) →
      ((∃ a ∈ attrs, (a.name = "r".toList ∨ a.name = n.toList) ∧ radVal vb ref a = .ok y) ∨
        ((∀ a ∈ attrs, ¬ (a.name = "r".toList ∨ a.name = n.toList)) ∧ y = num 0)) → y = x := by
    intro n ref x y hne h h'
    rcases h with ⟨g1, g2⟩ | ⟨g1, g2⟩
    · refine len_of_loop g1 ?_ hd
      rcases h' with ⟨a, ha, hn, hv⟩ | ⟨k1, k2⟩
      · have := hn.resolve_right (no _ g2 a ha)
        rw [radVal, if_pos this] at hv
        exact .inl ⟨a, ha, this, hv⟩
      · exact .inr ⟨fun a ha hn => k1 a ha (.inl hn), k2⟩
    · refine len_of_loop g1 ?_ hd
      rcases h' with ⟨a, ha, hn, hv⟩ | ⟨k1, k2⟩
      · have := hn.resolve_left (no _ g2 a ha)
        rw [radVal, if_neg (by rw [this]; exact hne)] at hv
        exact .inl ⟨a, ha, this, hv⟩
      · exact .inr ⟨fun a ha hn => k1 a ha (.inr hn), k2⟩
  have e3 : b'.rx = rx := key (n := "rx") (ref := .width) (by decide)
    (by rcases h3 with ⟨g1, -, g2, g3⟩ | ⟨g1, g2, g3⟩; exacts [.inl ⟨g1, g2⟩, .inr ⟨g1, g3⟩]) f3
  have e4 : b'.ry = ry := key (n := "ry") (ref := .height) (by decide)
    (by rcases h3 with ⟨g1, rfl, g2, g3⟩ | ⟨g1, g2, g3⟩; exacts [.inl ⟨g1, g3⟩, .inr ⟨g2, g3⟩]) f4
  have e1 := len_of_loop h1 f1 hd
  have e2 := len_of_loop h2 f2 hd
  rw [hb, ← e1, ← e2, ← e3, ← e4]

theorem drawFuncs_circle {name : Str} (hn : name = "circle".toList ∨ name = "ellipse".toList) (fuel : Nat) (use : List Attr → CM F Unit) :
    drawFuncs fuel use name = some circleF := by
  rcases hn with rfl | rfl <;> rfl

/-- C15, zero radii: nothing is drawn and there is no error. Any arithmetic. -/
theorem C15_zero_radius {fuel : Nat} {name : Str} (hn : name = "circle".toList ∨ name = "ellipse".toList) {attrs : List Attr}
    (hd : Distinct attrs) {c : Cursor F} {st : PathStyle F} (hr : Ready c st) {cx cy rx ry : F}
    (h1 : Len c.svg.viewBox attrs "cx" .width cx) (h2 : Len c.svg.viewBox attrs "cy" .height cy) (h3 : Radii c.svg.viewBox attrs rx ry)
    (h0 : GoFloat.eq rx (num 0) = true ∨ GoFloat.eq ry (num 0) = true) : Adds (readStartElement fuel name attrs c) c [] := by
  have hdf : circleF attrs c = (.ok (), { c with pc := c.pc }) := by
    unfold circleF
    simp only [SM.bind_run, SM.get_run, SM.lift_run, circle_vars hd h1 h2 h3]
    rw [if_pos (by simpa using h0)]
    rfl
  have := start_adds (drawFuncs_circle hn fuel _) hr hdf
  rwa [if_pos hr.path] at this

/-- A full turn. -/
theorem circle_turn (cx cy rx ry : ℝ) (hx : rx ≠ 0) :
    arcDeltaEta ⟨rx, ry, 0, 1, 0, cx + rx, cy⟩ cx cy (cx + rx) cy = (0, -(2 * Real.pi)) := by
  obtain ⟨h1, ⟨n, h2⟩, h3⟩ := arcDeltaEta_real ⟨rx, ry, 0, 1, 0, cx + rx, cy⟩ cx cy (cx + rx) cy
  have hpi := Real.pi_pos
  have he : etaOf ⟨cx, cy, rx, ry, 0 * Real.pi / 180⟩ (cx + rx) cy = 0 := by
    unfold etaOf
    simp only [add_sub_cancel_left, sub_self, zero_mul, zero_div, sub_zero]
    rcases lt_or_gt_of_ne hx with h | h
    · have e1 : Complex.arg ⟨rx, 0⟩ = Real.pi := by
        rw [Complex.arg_eq_pi_iff]; exact ⟨h, rfl⟩
      rw [e1, Real.cos_pi, Real.sin_pi, zero_div, Complex.arg_eq_zero_iff]
      exact ⟨by rw [neg_div]; exact (neg_pos.2 (one_div_neg.2 h)).le, rfl⟩
    · have e1 : Complex.arg ⟨rx, 0⟩ = 0 := by
        rw [Complex.arg_eq_zero_iff]; exact ⟨h.le, rfl⟩
      rw [e1, Real.cos_zero, Real.sin_zero, zero_div, Complex.arg_eq_zero_iff]
      exact ⟨by positivity, rfl⟩
  simp only [he, sub_self, zero_add] at h1 h2 h3
  rw [if_neg (by simp)] at h3
  rw [h2] at h3
  have n1 : n = -1 := by
    have a1 : (n : ℝ) < 0 := by nlinarith [h3.2]
    have a2 : -1 ≤ (n : ℝ) := by nlinarith [h3.1]
    have a1' : n < 0 := by exact_mod_cast a1
    have a2' : -1 ≤ n := by exact_mod_cast a2
    omega
  refine Prod.ext h1 ?_
  rw [h2, n1]; push_cast; ring

/-- C15 in exact arithmetic, with the offset of an enclosing `use`: a move to the point of the ellipse to the right of the
centre, seventeen cubics that follow the whole ellipse (so begin and end on it, the last one where the first one began), and
a close. -/
theorem C15_ellipse {fuel : Nat} {name : Str} (hn : name = "circle".toList ∨ name = "ellipse".toList) {attrs : List Attr}
    (hd : Distinct attrs) {c : Cursor ℝ} {st : PathStyle ℝ} (hr : Ready c st) {cx cy rx ry : ℝ}
    (h1 : Len c.svg.viewBox attrs "cx" .width cx) (h2 : Len c.svg.viewBox attrs "cy" .height cy) (h3 : Radii c.svg.viewBox attrs rx ry)
    (hx : rx ≠ 0) (hy : ry ≠ 0) :
    ∃ cs, Follows ⟨cx + c.pc.curX, cy + c.pc.curY, rx, ry, 0⟩ 0 (-(2 * Real.pi)) 17 cs ∧
      Adds (readStartElement fuel name attrs c) c
        [⟨[.moveTo (toFixedP (cx + c.pc.curX + rx) (cy + c.pc.curY))] ++
          cs.map (fun b => .cubicTo (toFixedP b.p1.1 b.p1.2) (toFixedP b.p2.1 b.p2.2) (toFixedP b.p3.1 b.p3.2)) ++ [.close], st⟩] := by
  obtain ⟨X, hX⟩ : ∃ X, X = cx + c.pc.curX := ⟨_, rfl⟩
  obtain ⟨Y, hY⟩ : ∃ Y, Y = cy + c.pc.curY := ⟨_, rfl⟩
  have ht := circle_turn X Y rx ry hx
  have hpi := Real.pi_pos
  obtain ⟨n, cs, f1, f2⟩ := addArc_follows ⟨rx, ry, 0, 1, 0, X + rx, Y⟩ X Y (X + rx) Y hx hy
    (by rw [ht]; simp [Ellipse.point]) (by rw [ht]; simp [Ellipse.point])
  rw [ht] at f1
  simp only [zero_mul, zero_div] at f1
  have hn17 : n = 17 := by
    have hs := f1.step
    have h1n : (0 : ℝ) < n := by exact_mod_cast f1.few.1
    rw [abs_neg, abs_of_pos (by positivity), div_lt_iff₀ h1n] at hs
    have : (16 : ℝ) < n := by nlinarith
    have : 16 < n := by exact_mod_cast this
    have := f1.few.2
    omega
  subst hn17
  refine ⟨cs, by rw [← hX, ← hY]; exact f1, ?_⟩
  have hdf : circleF attrs c = (.ok (), { c with pc := ellipseAt X Y rx ry c.pc }) := by
    unfold circleF
    simp only [SM.bind_run, SM.get_run, SM.lift_run, circle_vars hd h1 h2 h3, real_add, ← hX, ← hY]
    rw [if_neg (by simp [real_num, (real_eq_false _ _).2, hx, hy])]
    rw [SM.modify_run, hX, hY]
  have := start_adds (drawFuncs_circle hn fuel _) hr hdf
  have hp : (ellipseAt X Y rx ry c.pc).path = [.moveTo (toFixedP (X + rx) Y)] ++ cs.map storeCubic ++ [.close] := by
    unfold ellipseAt
    simp only [real_add, real_num, Rat.cast_zero, Rat.cast_one, hr.path]
    rw [f2]
    rfl
  rw [hp, if_neg (by simp)] at this
  rw [← hX, ← hY]
  exact this

/-! ### C16 -/

/-- The local variables of a rectangle. -/
theorem rect_vars {vb : Bounds F} {attrs : List Attr} (hd : Distinct attrs) {x y w h rx ry : F}
    (h1 : Len vb attrs "x" .width x) (h2 : Len vb attrs "y" .height y) (h3 : Len vb attrs "width" .width w)
    (h4 : Len vb attrs "height" .height h) (h5 : Len vb attrs "rx" .width rx) (h6 : Len vb attrs "ry" .height ry) :
    Res.loop (rectAttr vb) ⟨num 0, num 0, num 0, num 0, num 0, num 0⟩ attrs = .ok ⟨x, y, w, h, rx, ry⟩ := by
  have tot : ∀ a ∈ attrs, ∀ b, ∃ b', rectAttr vb b a = .ok b' := by
    intro a ha b
    unfold rectAttr
    split
    · rename_i h; rw [len_resolves hd h1 ha h]; exact ⟨_, rfl⟩
    · split
      · rename_i h; rw [len_resolves hd h2 ha h]; exact ⟨_, rfl⟩
      · split
        · rename_i h; rw [len_resolves hd h3 ha h]; exact ⟨_, rfl⟩
        · split
          · rename_i h; rw [len_resolves hd h4 ha h]; exact ⟨_, rfl⟩
          · split
            · rename_i h; rw [len_resolves hd h5 ha h]; exact ⟨_, rfl⟩
            · split
              · rename_i h; rw [len_resolves hd h6 ha h]; exact ⟨_, rfl⟩
              · exact ⟨_, rfl⟩
  obtain ⟨b', hb⟩ := loop_total attrs tot ⟨num 0, num 0, num 0, num 0, num 0, num 0⟩
  have f1 := len_of_loop h1 (loop_field (· = "x".toList) RectVars.x (fun a => resolveUnit vb a.value .width) (step := rectAttr vb)
    (by shape_attr rectAttr) (by shape_attr rectAttr) attrs (distinct_pairwise hd _) _ _ hb) hd
  have f2 := len_of_loop h2 (loop_field (· = "y".toList) RectVars.y (fun a => resolveUnit vb a.value .height) (step := rectAttr vb)
    (by shape_attr rectAttr) (by shape_attr rectAttr) attrs (distinct_pairwise hd _) _ _ hb) hd
  have f3 := len_of_loop h3 (loop_field (· = "width".toList) RectVars.w (fun a => resolveUnit vb a.value .width) (step := rectAttr vb)
    (by shape_attr rectAttr) (by shape_attr rectAttr) attrs (distinct_pairwise hd _) _ _ hb) hd
  have f4 := len_of_loop h4 (loop_field (· = "height".toList) RectVars.h (fun a => resolveUnit vb a.value .height) (step := rectAttr vb)
    (by shape_attr rectAttr) (by shape_attr rectAttr) attrs (distinct_pairwise hd _) _ _ hb) hd
  have f5 := len_of_loop h5 (loop_field (· = "rx".toList) RectVars.rx (fun a => resolveUnit vb a.value .width) (step := rectAttr vb)
    (by shape_attr rectAttr) (by shape_attr rectAttr) attrs (distinct_pairwise hd _) _ _ hb) hd
  have f6 := len_of_loop h6 (loop_field (· = "ry".toList) RectVars.ry (fun a => resolveUnit vb a.value .height) (step := rectAttr vb)
    (by shape_attr rectAttr) (by shape_attr rectAttr) attrs (distinct_pairwise hd _) _ _ hb) hd
  rw [hb, ← f1, ← f2, ← f3, ← f4, ← f5, ← f6]

/-- The lengths of a rectangle. -/
structure IsRect (vb : Bounds F) (attrs : List Attr) (x y w h rx ry : F) : Prop where
  x : Len vb attrs "x" .width x
  y : Len vb attrs "y" .height y
  w : Len vb attrs "width" .width w
  h : Len vb attrs "height" .height h
  rx : Len vb attrs "rx" .width rx
  ry : Len vb attrs "ry" .height ry

theorem rect_adds {fuel : Nat} {attrs : List Attr} (hd : Distinct attrs) {c : Cursor F} {st : PathStyle F} (hr : Ready c st)
    {x y w h rx ry : F} (hv : IsRect c.svg.viewBox attrs x y w h rx ry) {ops : Path}
    (ho : rectOps fuel c.pc.curX c.pc.curY ⟨x, y, w, h, rx, ry⟩ = some ops) :
    Adds (readStartElement fuel "rect".toList attrs c) c (if ops = [] then [] else [⟨ops, st⟩]) := by
  have hdf : rectF fuel attrs c = (.ok (), { c with pc := c.pc.addOps ops }) := by
    unfold rectF
    simp only [SM.bind_run, SM.get_run, SM.lift_run, rect_vars hd hv.x hv.y hv.w hv.h hv.rx hv.ry, ho]
    rfl
  have := start_adds (fuel := fuel) (name := "rect".toList) (df := rectF fuel) rfl hr hdf
  simpa [PathCursor.addOps, hr.path] using this

/-- C16, zero width or height: nothing is drawn and there is no error. Any arithmetic. -/
theorem C16_empty {fuel : Nat} {attrs : List Attr} (hd : Distinct attrs) {c : Cursor F} {st : PathStyle F} (hr : Ready c st)
    {x y w h rx ry : F} (hv : IsRect c.svg.viewBox attrs x y w h rx ry)
    (h0 : GoFloat.eq w (num 0) = true ∨ GoFloat.eq h (num 0) = true) :
    Adds (readStartElement fuel "rect".toList attrs c) c [] := by
  have := rect_adds (fuel := fuel) hd hr hv (ops := []) (by unfold rectOps; rw [if_pos (by simpa using h0)])
  simpa using this

theorem toFix_range (v : ℝ) : -2 ^ 31 ≤ toFix v ∧ toFix v < 2 ^ 31 := by
  unfold toFix
  show -2 ^ 31 ≤ (if _ then _ else _ : ℤ) ∧ (if _ then _ else _ : ℤ) < 2 ^ 31
  split
  · assumption
  · norm_num

theorem identity_toFixedP (x y : ℝ) : (Matrix2D.identity : Matrix2D ℝ).tFixed (toFixedP x y) = toFixedP x y :=
  C20_identity_fixed _ (toFix_range x) (toFix_range y)

theorem addRect_real (x0 y0 x1 y1 : ℝ) : addRect x0 y0 x1 y1 0 =
    [.moveTo (toFixedP x0 y0), .lineTo (toFixedP x1 y0), .lineTo (toFixedP x1 y1), .lineTo (toFixedP x0 y1), .close] := by
  unfold addRect
  have hm : ((Matrix2D.identity.translate ((x0 +. x1) /. num 2) ((y0 +. y1) /. num 2)).rotate ((0 : ℝ) *. GoFloat.piMul (1 / 180))).translate
      (GoFloat.neg ((x0 +. x1) /. num 2)) (GoFloat.neg ((y0 +. y1) /. num 2)) = Matrix2D.identity := by
    apply Matrix2D.ext' <;> simp [Matrix2D.mult, Matrix2D.translate, Matrix2D.rotate, Matrix2D.identity]
  simp only [hm, identity_toFixedP]

/-- C16, square corners (no radii given, or not positive), in exact arithmetic. -/
theorem C16_corners {fuel : Nat} {attrs : List Attr} (hd : Distinct attrs) {c : Cursor ℝ} {st : PathStyle ℝ} (hr : Ready c st)
    {x y w h rx ry : ℝ} (hv : IsRect c.svg.viewBox attrs x y w h rx ry) (hw : w ≠ 0) (hh : h ≠ 0) (h0 : rx ≤ 0 ∧ ry ≤ 0) :
    let X := x + c.pc.curX
    let Y := y + c.pc.curY
    Adds (readStartElement fuel "rect".toList attrs c) c
      [⟨[.moveTo (toFixedP X Y), .lineTo (toFixedP (X + w) Y), .lineTo (toFixedP (X + w) (Y + h)), .lineTo (toFixedP X (Y + h)), .close], st⟩] := by
  intro X Y
  have ho : rectOps fuel c.pc.curX c.pc.curY ⟨x, y, w, h, rx, ry⟩ =
      some [.moveTo (toFixedP X Y), .lineTo (toFixedP (X + w) Y), .lineTo (toFixedP (X + w) (Y + h)), .lineTo (toFixedP X (Y + h)), .close] := by
    have e1 : w + x + c.pc.curX = X + w := by simp only [X]; ring
    have e2 : h + y + c.pc.curY = Y + h := by simp only [Y]; ring
    unfold rectOps
    rw [if_neg (by simp [(real_eq_false _ _).2, hw, hh])]
    unfold addRoundRect
    simp only [real_add, real_num, Rat.cast_zero, e1, e2]
    rw [if_pos, addRect_real]
    by_cases h1 : rx = 0
    · subst h1
      by_cases h2 : ry = 0
      · subst h2; simp [(real_eq _ _).2, (real_le _ _).2]
      · simp [(real_eq _ _).2, (real_eq_false _ _).2 h2, (real_le _ _).2 h0.2]
    · simp [(real_eq_false _ _).2 h1, (real_le _ _).2 h0.1]
  simpa using rect_adds hd hr hv ho

/-- C16, missing radius: a rectangle with one radius is drawn like the one with both. Exact arithmetic. -/
theorem C16_missing_radius {fuel : Nat} {attrs attrs' : List Attr} (hd : Distinct attrs) (hd' : Distinct attrs') {c : Cursor ℝ}
    (hdefs : c.inDefs = false)
    {x y w h r rx ry : ℝ} (hone : (rx = 0 ∧ ry = r) ∨ (rx = r ∧ ry = 0)) (hv : IsRect c.svg.viewBox attrs x y w h rx ry)
    (hv' : IsRect c.svg.viewBox attrs' x y w h r r) :
    readStartElement fuel "rect".toList attrs c = readStartElement fuel "rect".toList attrs' c := by
  have ho : rectOps fuel c.pc.curX c.pc.curY ⟨x, y, w, h, rx, ry⟩ = rectOps fuel c.pc.curX c.pc.curY ⟨x, y, w, h, r, r⟩ := by
    unfold rectOps
    simp only [real_num, Rat.cast_zero]
    by_cases hr : r = 0
    · rcases hone with ⟨rfl, rfl⟩ | ⟨rfl, rfl⟩ <;> simp [hr]
    · rcases hone with ⟨rfl, rfl⟩ | ⟨rfl, rfl⟩ <;> simp [(real_eq _ _).2, (real_eq_false _ _).2 hr]
  have hf : rectF fuel attrs c = rectF fuel attrs' c := by
    unfold rectF
    simp only [SM.bind_run, SM.get_run, SM.lift_run, rect_vars hd hv.x hv.y hv.w hv.h hv.rx hv.ry,
      rect_vars hd' hv'.x hv'.y hv'.w hv'.h hv'.rx hv'.ry, ho]
  unfold readStartElement
  simp only [hdefs, Bool.false_eq_true, false_and, if_false]
  rw [show drawFuncs fuel (useF (F := ℝ) fuel) "rect".toList = some (rectF fuel) from rfl]
  simp only [hf]

/-- The matrix of a rounded rectangle in exact arithmetic, for radii `r1` and `r2` and the middle `m` of its height. -/
theorem round_matrix (x0 w m h y0 r1 r2 : ℝ) (hm : m = y0 + h / 2) :
    (((Matrix2D.identity.translate (x0 +. w /. num 2) m).rotate ((0 : ℝ) *. GoFloat.piMul (1 / 180))).scale (num 1)
      (num 1 /. (r1 /. r2))).translate (GoFloat.neg x0 -. w /. num 2) (GoFloat.neg y0 -. h /. num 2) =
    ⟨1, 0, 0, r2 / r1, 0, m * (r2 / r1) - m⟩ := by
  apply Matrix2D.ext' <;> simp [Matrix2D.mult, Matrix2D.translate, Matrix2D.rotate, Matrix2D.identity, Matrix2D.scale]
  rw [hm]; ring

theorem raise_stop (fuel : Nat) (t l : ℝ) (h : l ≤ t) : raise fuel t l = some t := by
  rw [raise.eq_def]
  dsimp only
  rw [if_neg (fun hh => absurd ((real_lt _ _).1 hh) (not_lt.2 h))]

theorem raise_step (fuel : Nat) (t l : ℝ) (h : t < l) : raise (fuel + 1) t l = raise fuel (t + 2 * Real.pi) l := by
  rw [raise.eq_def]
  dsimp only
  rw [if_pos ((real_lt _ _).2 h), real_add, real_piMul]
  norm_num

theorem raise_some {fuel : Nat} (hf : 1 ≤ fuel) (a b : ℂ) : ∃ t, raise fuel (Complex.arg a) (Complex.arg b) = some t := by
  obtain ⟨f, rfl⟩ : ∃ f, fuel = f + 1 := ⟨fuel - 1, by omega⟩
  rcases lt_or_ge (Complex.arg a) (Complex.arg b) with h | h
  · rw [raise_step _ _ _ h, raise_stop]
    · exact ⟨_, rfl⟩
    · have := Complex.neg_pi_lt_arg a
      have := Complex.arg_le_pi b
      linarith
  · exact ⟨_, raise_stop _ _ _ h⟩

/-- A corner: a line to where the arc begins, cubics, and a line to the fixed end of the arc. -/
def IsCorner (m : Matrix2D ℝ) (stop : Pt) (ops : Path) : Prop :=
  ∃ p cs, ops = .lineTo p :: cs ++ [.lineTo (m.tFixed stop)] ∧ ∀ o ∈ cs, ∃ a b q, o = .cubicTo a b q

theorem circLoop_cubics (m : Matrix2D ℝ) (a : Pt) (θ d r : ℝ) (α : Int) (n : Nat) : ∀ i s l,
    ∀ o ∈ circLoop m a θ d r α n i s l, ∃ a b q, o = .cubicTo a b q := by
  induction n with
  | zero => intro i s l o ho; simp [circLoop] at ho
  | succ n ih =>
    intro i s l o ho
    rw [circLoop] at ho
    rcases List.mem_cons.1 ho with rfl | ho
    · exact ⟨_, _, _, rfl⟩
    · exact ih _ _ _ o ho

theorem roundGap_corner {fuel : Nat} (hf : 1 ≤ fuel) (m : Matrix2D ℝ) (a t l : Pt) :
    ∃ g, roundGap fuel m a t l = some g ∧ IsCorner m (a.add l) g := by
  unfold roundGap addArcCirc
  simp only [Bool.not_true, Bool.false_eq_true, if_false]
  obtain ⟨u, hu⟩ := raise_some hf ⟨((wrap32 ((a.add l).x - a.x) : ℤ) : ℝ), ((wrap32 ((a.add l).y - a.y) : ℤ) : ℝ)⟩
    ⟨((wrap32 ((a.add t).x - a.x) : ℤ) : ℝ), ((wrap32 ((a.add t).y - a.y) : ℤ) : ℝ)⟩
  simp only [real_atan2, real_ofInt, hu, Option.map_some]
  refine ⟨_, rfl, _, _, rfl, ?_⟩
  exact circLoop_cubics _ _ _ _ _ _ _ _ _ _

/-- C16, rounded corners with equal radii, in exact arithmetic. The radii are limited to half the sides; the outline begins at
(x + r, y), visits the four sides between their tangent points with a rounded corner after each, and is closed. What is
missing for the full claim: radii that differ (after limiting), for which it is false. -/
theorem C16_rounded_partial {fuel : Nat} (hf : 1 ≤ fuel) {attrs : List Attr} (hd : Distinct attrs) {c : Cursor ℝ} {st : PathStyle ℝ}
    (hr : Ready c st) {x y w h rx ry r : ℝ} (hv : IsRect c.svg.viewBox attrs x y w h rx ry) (hw : 0 < w) (hh : 0 < h) (hx : 0 < rx)
    (hy : 0 < ry) (h1 : r = min rx (w / 2)) (h2 : r = min ry (h / 2)) :
    let X := x + c.pc.curX
    let Y := y + c.pc.curY
    ∃ g1 g2 g3 g4,
      IsCorner Matrix2D.identity ((toFixedP (X + w - r) (Y + r)).add (toFixedP r 0)) g1 ∧
      IsCorner Matrix2D.identity ((toFixedP (X + w - r) (Y + h - r)).add (toFixedP 0 r)) g2 ∧
      IsCorner Matrix2D.identity ((toFixedP (X + r) (Y + h - r)).add (toFixedP (-r) 0)) g3 ∧
      IsCorner Matrix2D.identity ((toFixedP (X + r) (Y + r)).add (toFixedP 0 (-r))) g4 ∧
      Adds (readStartElement fuel "rect".toList attrs c) c
      [⟨[.moveTo (toFixedP (X + r) Y), .lineTo (toFixedP (X + w - r) Y)] ++ g1 ++
        [.lineTo (toFixedP (X + w) (Y + h - r))] ++ g2 ++ [.lineTo (toFixedP (X + r) (Y + h))] ++ g3 ++
        [.lineTo (toFixedP X (Y + r))] ++ g4 ++ [.close], st⟩] := by
  intro X Y
  have hr0 : 0 < r := by rw [h1]; positivity
  obtain ⟨g1, a1, b1⟩ := roundGap_corner hf Matrix2D.identity (toFixedP (X + w - r) (Y + r)) (toFixedP 0 (-r)) (toFixedP r 0)
  obtain ⟨g2, a2, b2⟩ := roundGap_corner hf Matrix2D.identity (toFixedP (X + w - r) (Y + h - r)) (toFixedP r 0) (toFixedP 0 r)
  obtain ⟨g3, a3, b3⟩ := roundGap_corner hf Matrix2D.identity (toFixedP (X + r) (Y + h - r)) (toFixedP 0 r) (toFixedP (-r) 0)
  obtain ⟨g4, a4, b4⟩ := roundGap_corner hf Matrix2D.identity (toFixedP (X + r) (Y + r)) (toFixedP (-r) 0) (toFixedP 0 (-r))
  refine ⟨g1, g2, g3, g4, b1, b2, b3, b4, ?_⟩
  have lim : ∀ a b : ℝ, (if GoFloat.lt b (a * 2) = true then b / 2 else a) = min a (b / 2) := by
    intro a b
    by_cases h : b < a * 2
    · rw [if_pos ((real_lt _ _).2 h), min_eq_right (by linarith)]
    · rw [if_neg (fun hh => h ((real_lt _ _).1 hh)), min_eq_left (by linarith)]
  have e1 : w + x + c.pc.curX = X + w := by simp only [X]; ring
  have e2 : h + y + c.pc.curY = Y + h := by simp only [Y]; ring
  have ho : rectOps fuel c.pc.curX c.pc.curY ⟨x, y, w, h, rx, ry⟩ =
      some ([.moveTo (toFixedP (X + r) Y), .lineTo (toFixedP (X + w - r) Y)] ++ g1 ++
        [.lineTo (toFixedP (X + w) (Y + h - r))] ++ g2 ++ [.lineTo (toFixedP (X + r) (Y + h))] ++ g3 ++
        [.lineTo (toFixedP X (Y + r))] ++ g4 ++ [.close]) := by
    unfold rectOps
    rw [if_neg (by simp [(real_eq_false _ _).2, hw.ne', hh.ne'])]
    simp only [real_num, Rat.cast_zero, (real_eq_false _ _).2 hx.ne', (real_eq_false _ _).2 hy.ne', Bool.and_false, Bool.false_eq_true,
      if_false, real_add, e1, e2]
    change addRoundRect fuel X Y (X + w) (Y + h) rx ry 0 = _
    have hm := round_matrix X w (Y + h / 2) h Y r r rfl
    rw [div_self hr0.ne', mul_one, sub_self] at hm
    unfold addRoundRect
    rw [if_neg (by simp [hx, hy])]
    have ew : X + w - X = w := by ring
    have eh : Y + h - Y = h := by ring
    have e64 : ((2 : ℚ) : ℝ) = 2 := by norm_num
    simp only [real_sub, real_mul, real_num, real_div, real_add, e64, ew, eh, lim, ← h1, ← h2] at hm ⊢
    have hI : (⟨1, 0, 0, 1, 0, 0⟩ : Matrix2D ℝ) = Matrix2D.identity := by
      apply Matrix2D.ext' <;> simp [Matrix2D.identity]
    rw [hI] at hm
    rw [hm]
    have y1 : Y + h / 2 - h / 2 * (r / r) = Y := by rw [div_self hr0.ne']; ring
    have y2 : Y + h / 2 + h / 2 * (r / r) = Y + h := by rw [div_self hr0.ne']; ring
    simp only [y1, y2, real_neg, Rat.cast_zero, a1, a2, a3, a4, identity_toFixedP]
  simpa using rect_adds hd hr hv ho

/-- Where a rounded rectangle with any radii begins. -/
theorem round_start {fuel : Nat} (hf : 1 ≤ fuel) (X Y w h rx ry : ℝ) (hx : 0 < rx) (hy : 0 < ry) :
    let r1 := min rx (w / 2)
    let r2 := min ry (h / 2)
    let m := Y + h / 2
    ∃ ops, addRoundRect fuel X Y (X + w) (Y + h) rx ry 0 =
      some (.moveTo ((⟨1, 0, 0, r2 / r1, 0, m * (r2 / r1) - m⟩ : Matrix2D ℝ).tFixed (toFixedP (X + r1) (m - h / 2 * (r1 / r2)))) :: ops) := by
  intro r1 r2 m
  have lim : ∀ a b : ℝ, (if GoFloat.lt b (a * 2) = true then b / 2 else a) = min a (b / 2) := by
    intro a b
    by_cases h : b < a * 2
    · rw [if_pos ((real_lt _ _).2 h), min_eq_right (by linarith)]
    · rw [if_neg (fun hh => h ((real_lt _ _).1 hh)), min_eq_left (by linarith)]
  have hm := round_matrix X w m h Y r1 r2 rfl
  unfold addRoundRect
  rw [if_neg (by simp [hx, hy])]
  have ew : X + w - X = w := by ring
  have eh : Y + h - Y = h := by ring
  have e64 : ((2 : ℚ) : ℝ) = 2 := by norm_num
  simp only [real_sub, real_mul, real_num, real_div, real_add, e64, ew, eh, lim, Rat.cast_zero] at hm ⊢
  rw [hm]
  obtain ⟨g1, a1, -⟩ := roundGap_corner hf ⟨1, 0, 0, r2 / r1, 0, m * (r2 / r1) - m⟩
    (toFixedP (X + w - r1) (m - h / 2 * (r1 / r2) + r1)) (toFixedP 0 (GoFloat.neg r1)) (toFixedP r1 0)
  obtain ⟨g2, a2, -⟩ := roundGap_corner hf ⟨1, 0, 0, r2 / r1, 0, m * (r2 / r1) - m⟩
    (toFixedP (X + w - r1) (m + h / 2 * (r1 / r2) - r1)) (toFixedP r1 0) (toFixedP 0 r1)
  obtain ⟨g3, a3, -⟩ := roundGap_corner hf ⟨1, 0, 0, r2 / r1, 0, m * (r2 / r1) - m⟩
    (toFixedP (X + r1) (m + h / 2 * (r1 / r2) - r1)) (toFixedP 0 r1) (toFixedP (GoFloat.neg r1) 0)
  obtain ⟨g4, a4, -⟩ := roundGap_corner hf ⟨1, 0, 0, r2 / r1, 0, m * (r2 / r1) - m⟩
    (toFixedP (X + r1) (m - h / 2 * (r1 / r2) + r1)) (toFixedP (GoFloat.neg r1) 0) (toFixedP 0 (GoFloat.neg r1))
  rw [a1, a2, a3, a4]
  exact ⟨_, rfl⟩

/-- Rounded rectangles with different radii are displaced: one of 40 by 40 at the origin with radii 10 and 5 begins at (10, -20)
instead of (10, 0). -/
theorem round_displaced {fuel : Nat} (hf : 1 ≤ fuel) {attrs : List Attr} (hd : Distinct attrs) {c : Cursor ℝ} {st : PathStyle ℝ}
    (hr : Ready c st) (hc : c.pc.curX = 0 ∧ c.pc.curY = 0) (hv : IsRect c.svg.viewBox attrs 0 0 40 40 10 5) :
    ∃ ops, Adds (readStartElement fuel "rect".toList attrs c) c [⟨.moveTo ⟨640, -1280⟩ :: ops, st⟩] ∧
      toFixedP (10 : ℝ) 0 = ⟨640, 0⟩ := by
  obtain ⟨ops, h⟩ := round_start hf 0 0 40 40 10 5 (by norm_num) (by norm_num)
  have g1 : toFixedP (10 : ℝ) (-20) = ⟨640, -1280⟩ := toFixedP_grid (by norm_num) (by norm_num) (by norm_num) (by norm_num)
  have g2 : toFixedP (10 : ℝ) 0 = ⟨640, 0⟩ := toFixedP_grid (by norm_num) (by norm_num) (by norm_num) (by norm_num)
  refine ⟨ops, ?_, g2⟩
  have ho : rectOps fuel c.pc.curX c.pc.curY ⟨(0 : ℝ), 0, 40, 40, 10, 5⟩ = some (.moveTo ⟨640, -1280⟩ :: ops) := by
    unfold rectOps
    rw [if_neg (by simp [(real_eq_false _ _).2])]
    simp only [real_num, Rat.cast_zero, (real_eq_false (10 : ℝ) 0).2 (by norm_num), (real_eq_false (5 : ℝ) 0).2 (by norm_num),
      Bool.and_false, Bool.false_eq_true, if_false, real_add, hc.1, hc.2, add_zero]
    simp only [zero_add] at h
    rw [h]
    have e1 : min (10 : ℝ) (40 / 2) = 10 := by norm_num
    have e2 : min (5 : ℝ) (40 / 2) = 5 := by norm_num
    have e3 : (40 : ℝ) / 2 - 40 / 2 * (10 / 5) = -20 := by norm_num
    rw [e1, e2, e3, g1]
    have e4 : (⟨1, 0, 0, 5 / 10, 0, 40 / 2 * (5 / 10) - 40 / 2⟩ : Matrix2D ℝ).tFixed ⟨640, -1280⟩ = ⟨640, -1280⟩ := by
      simp only [Matrix2D.tFixed, real_add, real_mul, real_num, real_ofInt]
      rw [show ((640 : ℤ) : ℝ) * 1 + ((-1280 : ℤ) : ℝ) * 0 + 0 * ((64 : ℚ) : ℝ) = ((640 : ℤ) : ℝ) by norm_num,
        show ((640 : ℤ) : ℝ) * 0 + ((-1280 : ℤ) : ℝ) * (5 / 10) + (40 / 2 * (5 / 10) - 40 / 2) * ((64 : ℚ) : ℝ) = ((-1280 : ℤ) : ℝ) by
          norm_num, toI32_int _ (by norm_num) (by norm_num), toI32_int _ (by norm_num) (by norm_num)]
    rw [e4]
  simpa using rect_adds hd hr hv ho

/-! ### C17 -/

theorem line_vars {vb : Bounds F} {attrs : List Attr} (hd : Distinct attrs) {x1 y1 x2 y2 : F}
    (h1 : Len vb attrs "x1" .width x1) (h2 : Len vb attrs "y1" .height y1) (h3 : Len vb attrs "x2" .width x2)
    (h4 : Len vb attrs "y2" .height y2) :
    Res.loop (lineAttr vb) ⟨num 0, num 0, num 0, num 0⟩ attrs = .ok ⟨x1, x2, y1, y2⟩ := by
  have tot : ∀ a ∈ attrs, ∀ b, ∃ b', lineAttr vb b a = .ok b' := by
    intro a ha b
    unfold lineAttr
    split
    · rename_i h; rw [len_resolves hd h1 ha h]; exact ⟨_, rfl⟩
    · split
      · rename_i h; rw [len_resolves hd h3 ha h]; exact ⟨_, rfl⟩
      · split
        · rename_i h; rw [len_resolves hd h2 ha h]; exact ⟨_, rfl⟩
        · split
          · rename_i h; rw [len_resolves hd h4 ha h]; exact ⟨_, rfl⟩
          · exact ⟨_, rfl⟩
  obtain ⟨b', hb⟩ := loop_total attrs tot ⟨num 0, num 0, num 0, num 0⟩
  have f1 := len_of_loop h1 (loop_field (· = "x1".toList) LineVars.x1 (fun a => resolveUnit vb a.value .width) (step := lineAttr vb)
    (by shape_attr lineAttr) (by shape_attr lineAttr) attrs (distinct_pairwise hd _) _ _ hb) hd
  have f2 := len_of_loop h2 (loop_field (· = "y1".toList) LineVars.y1 (fun a => resolveUnit vb a.value .height) (step := lineAttr vb)
    (by shape_attr lineAttr) (by shape_attr lineAttr) attrs (distinct_pairwise hd _) _ _ hb) hd
  have f3 := len_of_loop h3 (loop_field (· = "x2".toList) LineVars.x2 (fun a => resolveUnit vb a.value .width) (step := lineAttr vb)
    (by shape_attr lineAttr) (by shape_attr lineAttr) attrs (distinct_pairwise hd _) _ _ hb) hd
  have f4 := len_of_loop h4 (loop_field (· = "y2".toList) LineVars.y2 (fun a => resolveUnit vb a.value .height) (step := lineAttr vb)
    (by shape_attr lineAttr) (by shape_attr lineAttr) attrs (distinct_pairwise hd _) _ _ hb) hd
  rw [hb, ← f1, ← f2, ← f3, ← f4]

/-- C17, lines, for any arithmetic and with the offset of an enclosing `use`. -/
theorem C17_line {fuel : Nat} {attrs : List Attr} (hd : Distinct attrs) {c : Cursor F} {st : PathStyle F} (hr : Ready c st)
    {x1 y1 x2 y2 : F} (h1 : Len c.svg.viewBox attrs "x1" .width x1) (h2 : Len c.svg.viewBox attrs "y1" .height y1)
    (h3 : Len c.svg.viewBox attrs "x2" .width x2) (h4 : Len c.svg.viewBox attrs "y2" .height y2) :
    Adds (readStartElement fuel "line".toList attrs c) c
      [⟨[.moveTo (toFixedP (x1 +. c.pc.curX) (y1 +. c.pc.curY)), .lineTo (toFixedP (x2 +. c.pc.curX) (y2 +. c.pc.curY))], st⟩] := by
  have hdf : lineF attrs c = (.ok (), { c with pc := (c.pc.addOps
      [.moveTo (toFixedP (x1 +. c.pc.curX) (y1 +. c.pc.curY)), .lineTo (toFixedP (x2 +. c.pc.curX) (y2 +. c.pc.curY))]) }) := by
    unfold lineF
    simp only [SM.bind_run, SM.get_run, SM.lift_run, line_vars hd h1 h2 h3 h4]
    rfl
  have := start_adds (fuel := fuel) (name := "line".toList) rfl hr hdf
  simpa [PathCursor.addOps, hr.path] using this

theorem polyAttr_other {a : Attr} (h : a.name ≠ "points".toList) (c : Cursor F) : polyAttr () a c = (.ok (), c) := by
  rw [show polyAttr () a = (pure () : CM F Unit) from if_neg h]
  rfl

theorem polyAttr_points {v : Str} {r : Res Unit} {ps : List F} (hv : ∀ pc : PathCursor F, getPoints v pc = (r, { pc with points := ps }))
    (c : Cursor F) : polyAttr () ⟨"points".toList, v⟩ c =
      (if ps.length % 2 ≠ 0 then .err .oddPoints else r, { c with pc := { c.pc with points := ps } }) := by
  have h : polyAttr () ⟨"points".toList, v⟩ = ((fun c =>
      let (r, pc) := getPoints v c.pc
      let c := { c with pc := pc }
      if pc.points.length % 2 ≠ 0 then (.err .oddPoints, c) else (r, c)) : CM F Unit) := if_pos rfl
  rw [h]
  simp only [hv]
  split <;> rfl

/-- Attributes other than `points` do nothing. -/
theorem poly_other : ∀ (attrs : List Attr), (∀ v, ¬ Given attrs "points" v) → ∀ c : Cursor F, attrLoop polyAttr () attrs c = (.ok (), c) := by
  intro attrs
  induction attrs with
  | nil => intro _ c; rfl
  | cons a as ih =>
    intro h c
    have h1 : a.name ≠ "points".toList := fun hn => h a.value (by rw [Given, ← hn]; exact List.mem_cons_self)
    rw [attrLoop, SM.bind_run, polyAttr_other h1]
    exact ih (fun v hv => h v (List.mem_cons_of_mem _ hv)) c

theorem poly_points {v : Str} {r : Res Unit} {ps : List F} (hv : ∀ pc : PathCursor F, getPoints v pc = (r, { pc with points := ps })) :
    ∀ (attrs : List Attr), Distinct attrs → Given attrs "points" v → ∀ c : Cursor F,
      attrLoop polyAttr () attrs c = (if ps.length % 2 ≠ 0 then .err .oddPoints else r, { c with pc := { c.pc with points := ps } }) := by
  intro attrs
  induction attrs with
  | nil => intro _ h; simp [Given] at h
  | cons a as ih =>
    intro hd h c
    rw [attrLoop, SM.bind_run]
    by_cases h1 : a.name = "points".toList
    · have ha : a = ⟨"points".toList, v⟩ := distinct_unique hd List.mem_cons_self h h1
      have hn : ∀ v, ¬ Given as "points" v := by
        intro v' hv'
        rw [Distinct, List.map_cons, List.nodup_cons] at hd
        exact hd.1 (by rw [h1]; exact List.mem_map_of_mem (f := Attr.name) hv')
      rw [ha, polyAttr_points hv]
      by_cases ho : ps.length % 2 ≠ 0
      · simp only [if_pos ho]
      · simp only [if_neg ho]
        cases r with
        | ok u => exact poly_other as hn _
        | err e => rfl
        | panic e => rfl
        | diverge => rfl
    · rw [polyAttr_other h1]
      have h2 : Given as "points" v := by
        rcases List.mem_cons.1 h with h | h
        · exact absurd (by rw [← h]) h1
        · exact h
      rw [Distinct, List.map_cons, List.nodup_cons] at hd
      exact ih hd.2 h2 c

/-- The coordinates of a list of points. -/
def coords (pts : List (F × F)) : List F := pts.flatMap fun p => [p.1, p.2]

theorem coords_length (pts : List (F × F)) : (coords pts).length = 2 * pts.length := by
  induction pts with
  | nil => rfl
  | cons p ps ih => simp only [coords, List.flatMap_cons, List.length_append, List.length_cons] at *; simp; omega

theorem writesNumbers_get {args : List F} {v : Str} (h : WritesNumbers args v) (pc : PathCursor F) :
    getPoints v pc = (.ok (), { pc with points := args }) := by
  obtain ⟨l, vs, rfl, h2, h3, rfl⟩ := h
  exact (groups_read l h2 pc).1 vs h3

theorem lineOps_coords (pc : PathCursor F) (pts : List (F × F)) :
    lineOps pc (coords pts) = pts.map fun p => .lineTo (toFixedP (p.1 +. pc.curX) (p.2 +. pc.curY)) := by
  induction pts with
  | nil => rfl
  | cons p ps ih =>
    rw [show coords (p :: ps) = p.1 :: p.2 :: coords ps from rfl, lineOps, ih]
    rfl

theorem polyDraw_points (pc : PathCursor F) (hp : pc.path = []) (p : F × F) (pts : List (F × F)) (h : pc.points = coords (p :: pts)) :
    polyDraw pc = { pc with path := (if 2 ≤ pts.length then .moveTo (toFixedP (p.1 +. pc.curX) (p.2 +. pc.curY)) ::
      pts.map (fun q => .lineTo (toFixedP (q.1 +. pc.curX) (q.2 +. pc.curY))) else []) } := by
  unfold polyDraw
  have hl : pc.points.length = 2 * (pts.length + 1) := by rw [h, coords_length]; rfl
  by_cases h2 : 2 ≤ pts.length
  · rw [if_pos (by omega), if_pos h2, h, PathCursor.addOps, hp]
    rw [show (coords (p :: pts)).drop 2 = coords pts from rfl, lineOps_coords, h]
    rfl
  · rw [if_neg (by omega), if_neg h2, ← hp]

/-- C17, polylines and polygons with at least three points, for any arithmetic and whatever was read before. What is missing for
the full claim: two points, and elements without points; it is false for both. -/
theorem C17_poly_partial {fuel : Nat} {closed : Bool} {attrs : List Attr} (hd : Distinct attrs) {c : Cursor F} {st : PathStyle F}
    (hr : Ready c st) {p : F × F} {pts : List (F × F)} {v : Str} (hv : Given attrs "points" v) (hw : WritesNumbers (coords (p :: pts)) v)
    (h2 : 2 ≤ pts.length) :
    Adds (readStartElement fuel (if closed then "polygon" else "polyline").toList attrs c) c
      [⟨.moveTo (toFixedP (p.1 +. c.pc.curX) (p.2 +. c.pc.curY)) ::
        pts.map (fun q => .lineTo (toFixedP (q.1 +. c.pc.curX) (q.2 +. c.pc.curY))) ++ (if closed then [.close] else []), st⟩] := by
  have hl := poly_points (fun pc => writesNumbers_get hw pc) attrs hd hv c
  rw [if_neg (by rw [coords_length]; omega)] at hl
  have hp := polyDraw_points { c.pc with points := coords (p :: pts) } hr.path p pts rfl
  rw [if_pos h2] at hp
  have hdf : polylineF attrs c = (.ok (), { c with pc := polyDraw { c.pc with points := coords (p :: pts) } }) := by
    unfold polylineF
    rw [SM.bind_run, hl]
    rfl
  cases closed with
  | false =>
    have := start_adds (fuel := fuel) (name := "polyline".toList) rfl hr hdf
    rw [hp, if_neg (by simp)] at this
    simpa using this
  | true =>
    have hg : polygonF attrs c = (.ok (), { c with pc := (polyDraw { c.pc with points := coords (p :: pts) }).addOps [.close] }) := by
      unfold polygonF
      rw [hdf, hp]
      simp only
      rw [if_pos (by rw [coords_length]; simp; omega)]
    have := start_adds (fuel := fuel) (name := "polygon".toList) rfl hr hg
    rw [hp, if_neg (by simp [PathCursor.addOps])] at this
    simpa [PathCursor.addOps] using this

/-- C17, odd number of coordinates: an error in every mode, for any arithmetic. -/
theorem C17_odd {fuel : Nat} {closed : Bool} {attrs : List Attr} (hd : Distinct attrs) {c : Cursor F} {st : PathStyle F}
    (hr : Ready c st) {args : List F} {v : Str} (hv : Given attrs "points" v) (hw : WritesNumbers args v) (h1 : args.length % 2 = 1) :
    (readStartElement fuel (if closed then "polygon" else "polyline").toList attrs c).1 = .err .oddPoints := by
  have hl := poly_points (fun pc => writesNumbers_get hw pc) attrs hd hv c
  rw [if_pos (by omega)] at hl
  have hdf : polylineF attrs c = (.err .oddPoints, { c with pc := { c.pc with points := args } }) := by
    unfold polylineF
    rw [SM.bind_run, hl]
  have hst : ∃ s rest, c.styleStack = s :: rest := by
    have := hr.style
    cases hs : c.styleStack with
    | nil => rw [hs] at this; simp at this
    | cons s rest => exact ⟨s, rest, rfl⟩
  obtain ⟨s, rest, hst⟩ := hst
  cases closed with
  | false =>
    unfold readStartElement
    simp only [hr.defs, Bool.false_eq_true, false_and, if_false]
    rw [show drawFuncs fuel (useF (F := F) fuel) "polyline".toList = some polylineF from rfl]
    simp only [hdf, emitPath, hr.path]
  | true =>
    unfold readStartElement
    simp only [hr.defs, Bool.false_eq_true, false_and, if_false, if_true]
    rw [show drawFuncs fuel (useF (F := F) fuel) "polygon".toList = some polygonF from rfl]
    simp only [polygonF, hdf]
    by_cases h5 : args.length > 4
    · simp [h5, emitPath, hr.path, PathCursor.addOps, hr.mask, hst]
    · simp [h5, emitPath, hr.path]

/-- Polylines with two points are not drawn. -/
theorem C17_two_points_not_drawn {fuel : Nat} {attrs : List Attr} (hd : Distinct attrs) {c : Cursor F} {st : PathStyle F}
    (hr : Ready c st) {p q : F × F} {v : Str} (hv : Given attrs "points" v) (hw : WritesNumbers (coords [p, q]) v) :
    Adds (readStartElement fuel "polyline".toList attrs c) c [] := by
  have hl := poly_points (fun pc => writesNumbers_get hw pc) attrs hd hv c
  rw [if_neg (by rw [coords_length]; simp)] at hl
  have hdf : polylineF attrs c = (.ok (), { c with pc := polyDraw { c.pc with points := coords [p, q] } }) := by
    unfold polylineF
    rw [SM.bind_run, hl]
    rfl
  have := start_adds (fuel := fuel) (name := "polyline".toList) rfl hr hdf
  rw [polyDraw_points { c.pc with points := coords [p, q] } hr.path p [q] rfl] at this
  simpa using this

/-- Polylines without points: the numbers left by an earlier element are drawn. -/
theorem C17_no_points_drawn {fuel : Nat} {attrs : List Attr} {c : Cursor F} {st : PathStyle F} (hr : Ready c st)
    (hn : ∀ v, ¬ Given attrs "points" v) {p : F × F} {pts : List (F × F)} (hp : c.pc.points = coords (p :: pts)) (h2 : 2 ≤ pts.length) :
    Adds (readStartElement fuel "polyline".toList attrs c) c
      [⟨.moveTo (toFixedP (p.1 +. c.pc.curX) (p.2 +. c.pc.curY)) ::
        pts.map (fun q => .lineTo (toFixedP (q.1 +. c.pc.curX) (q.2 +. c.pc.curY))), st⟩] := by
  have hdf : polylineF attrs c = (.ok (), { c with pc := polyDraw c.pc }) := by
    unfold polylineF
    rw [SM.bind_run, poly_other attrs hn c]
    rfl
  have := start_adds (fuel := fuel) (name := "polyline".toList) rfl hr hdf
  rw [polyDraw_points _ hr.path p pts hp, if_pos h2] at this
  simpa using this

end GoSvg

namespace GoSvg

open Spec

section Examples

attribute [local instance] asciiEnv
attribute [local instance] dummyLibm

theorem resolve_dec {s : Str} {q : ℚ} (h1 : (findUnit s).1 = .px) (h2 : parseDec (findUnit s).2 = some (false, q)) (vb : Bounds ℝ) (r : PercRef) :
    resolveUnit vb s r = .ok (q : ℝ) := by
  have hp : (GoFloat.parse (findUnit s).2 : Option ℝ) = some (q : ℝ) := by
    change (match parseLit (findUnit s).2 with
      | some (.fin neg q) => some (if neg then -(q : ℝ) else (q : ℝ))
      | _ => none) = _
    rw [parseLit_dec h2]; rfl
  simp [resolveUnit, parseUnit, hp, h1, toPx]

theorem len_dec {attrs : List Attr} {n : String} {v : Str} (hg : Given attrs n v) {q : ℚ} (h1 : (findUnit v).1 = .px)
    (h2 : parseDec (findUnit v).2 = some (false, q)) (vb : Bounds ℝ) (r : PercRef) : Len vb attrs n r (q : ℝ) :=
  .inl ⟨v, hg, resolve_dec h1 h2 vb r⟩

theorem not_given {attrs : List Attr} {n : String} (h : ∀ a ∈ attrs, a.name ≠ n.toList) : ∀ v, ¬ Given attrs n v :=
  fun _ hv => h _ hv rfl

theorem len_none {attrs : List Attr} {n : String} (h : ∀ a ∈ attrs, a.name ≠ n.toList) (vb : Bounds ℝ) (r : PercRef) :
    Len vb attrs n r (0 : ℝ) := .inr ⟨not_given h, by simp⟩

/-- C15: a circle of radius 3 around (1, 2). -/
example : ∃ cs, Follows ⟨1, 2, 3, 3, 0⟩ 0 (-(2 * Real.pi)) 17 cs ∧
    Adds (readStartElement 0 "circle".toList (attrsOf [("cy", "2"), ("r", "3"), ("id", "a"), ("cx", "1")]) (initCursor (F := ℝ) .strict))
      (initCursor .strict) [⟨[.moveTo ⟨256, 128⟩] ++
        cs.map (fun b => .cubicTo (toFixedP b.p1.1 b.p1.2) (toFixedP b.p2.1 b.p2.2) (toFixedP b.p3.1 b.p3.2)) ++ [.close], defaultStyle⟩] := by
  obtain ⟨A, hA⟩ : ∃ A, A = attrsOf [("cy", "2"), ("r", "3"), ("id", "a"), ("cx", "1")] := ⟨_, rfl⟩
  rw [← hA]
  have hd : Distinct A := by rw [hA]; decide
  have h1 := len_dec (attrs := A) (n := "cx") (v := "1".toList) (q := 1) (by rw [hA]; decide) (by decide) (by decide +kernel)
    (initCursor .strict).svg.viewBox .width
  have h2 := len_dec (attrs := A) (n := "cy") (v := "2".toList) (q := 2) (by rw [hA]; decide) (by decide) (by decide +kernel)
    (initCursor .strict).svg.viewBox .height
  have h3 := len_dec (attrs := A) (n := "r") (v := "3".toList) (q := 3) (by rw [hA]; decide) (by decide) (by decide +kernel)
    (initCursor .strict).svg.viewBox .diag
  obtain ⟨cs, g1, g2⟩ := C15_ellipse (fuel := 0) (.inl rfl) hd (ready_init .strict) h1 h2
    (.inl ⟨h3, rfl, not_given (by rw [hA]; decide), not_given (by rw [hA]; decide)⟩) (by norm_num) (by norm_num)
  have e1 : (initCursor (F := ℝ) .strict).pc.curX = 0 := by simp [initCursor]
  have e2 : (initCursor (F := ℝ) .strict).pc.curY = 0 := by simp [initCursor]
  rw [e1, e2] at g1 g2
  rw [toFixedP_grid (a := 256) (b := 128) (by norm_num) (by norm_num) (by norm_num) (by norm_num)] at g2
  refine ⟨cs, ?_, g2⟩
  convert g1 using 2 <;> norm_num

/-- The attributes of the rectangle in the examples. -/
def exRect (rx ry : String) : List Attr := attrsOf [("height", "40"), ("width", "40"), ("rx", rx), ("ry", ry)]

theorem ex_rect {rx ry : String} {q q' : ℚ} (h1 : (findUnit rx.toList).1 = .px) (h2 : parseDec (findUnit rx.toList).2 = some (false, q))
    (h3 : (findUnit ry.toList).1 = .px) (h4 : parseDec (findUnit ry.toList).2 = some (false, q')) (vb : Bounds ℝ) :
    IsRect vb (exRect rx ry) 0 0 40 40 (q : ℝ) (q' : ℝ) where
  x := len_none (by simp [exRect, attrsOf]) vb _
  y := len_none (by simp [exRect, attrsOf]) vb _
  w := by
    have := len_dec (attrs := exRect rx ry) (n := "width") (v := "40".toList) (q := 40) (by simp [exRect, attrsOf, Given]) (by decide)
      (by decide +kernel) vb .width
    simpa using this
  h := by
    have := len_dec (attrs := exRect rx ry) (n := "height") (v := "40".toList) (q := 40) (by simp [exRect, attrsOf, Given]) (by decide)
      (by decide +kernel) vb .height
    simpa using this
  rx := len_dec (by simp [exRect, attrsOf, Given]) h1 h2 vb _
  ry := len_dec (by simp [exRect, attrsOf, Given]) h3 h4 vb _

theorem exRect_distinct (rx ry : String) : Distinct (exRect rx ry) := by
  unfold Distinct exRect attrsOf
  simp only [List.map_cons, List.map_nil]
  decide

/-- C16 fails for rounded rectangles with different radii: `<rect width="40" height="40" rx="10" ry="5"/>` begins at (10, -20)
instead of (10, 0). -/
theorem C16_rounded_false : ∃ ops,
    Adds (readStartElement 1 "rect".toList (exRect "10" "5") (initCursor (F := ℝ) .strict)) (initCursor .strict)
      [⟨.moveTo ⟨640, -1280⟩ :: ops, defaultStyle⟩] ∧ toFixedP (10 : ℝ) 0 = ⟨640, 0⟩ := by
  refine round_displaced le_rfl (exRect_distinct _ _) (ready_init .strict) ⟨by simp [initCursor], by simp [initCursor]⟩ ?_
  have := ex_rect (rx := "10") (ry := "5") (q := 10) (q' := 5) (by decide) (by decide +kernel) (by decide) (by decide +kernel)
    (initCursor (F := ℝ) .strict).svg.viewBox
  simpa using this

/-- C16: without radii the four corners, with equal radii a rounded one. -/
example : Adds (readStartElement 1 "rect".toList (exRect "0" "0") (initCursor (F := ℝ) .strict)) (initCursor .strict)
      [⟨[.moveTo ⟨0, 0⟩, .lineTo ⟨2560, 0⟩, .lineTo ⟨2560, 2560⟩, .lineTo ⟨0, 2560⟩, .close], defaultStyle⟩] := by
  have hv := ex_rect (rx := "0") (ry := "0") (q := 0) (q' := 0) (by decide) (by decide +kernel) (by decide) (by decide +kernel)
    (initCursor (F := ℝ) .strict).svg.viewBox
  have := C16_corners (fuel := 1) (exRect_distinct _ _) (ready_init .strict) hv (by norm_num) (by norm_num) (by simp)
  have e1 : (initCursor (F := ℝ) .strict).pc.curX = 0 := by simp [initCursor]
  have e2 : (initCursor (F := ℝ) .strict).pc.curY = 0 := by simp [initCursor]
  simp only [e1, e2] at this
  rwa [toFixedP_grid (a := 0) (b := 0) (by norm_num) (by norm_num) (by norm_num) (by norm_num),
    toFixedP_grid (a := 2560) (b := 0) (by norm_num) (by norm_num) (by norm_num) (by norm_num),
    toFixedP_grid (a := 2560) (b := 2560) (by norm_num) (by norm_num) (by norm_num) (by norm_num),
    toFixedP_grid (a := 0) (b := 2560) (by norm_num) (by norm_num) (by norm_num) (by norm_num)] at this

example : ∃ ops, Adds (readStartElement 1 "rect".toList (exRect "10" "10") (initCursor (F := ℝ) .strict)) (initCursor .strict)
      [⟨.moveTo ⟨640, 0⟩ :: ops, defaultStyle⟩] := by
  have hv := ex_rect (rx := "10") (ry := "10") (q := 10) (q' := 10) (by decide) (by decide +kernel) (by decide) (by decide +kernel)
    (initCursor (F := ℝ) .strict).svg.viewBox
  obtain ⟨g1, g2, g3, g4, -, -, -, -, h⟩ := C16_rounded_partial (fuel := 1) le_rfl (exRect_distinct _ _) (ready_init .strict) hv
    (r := 10) (by norm_num) (by norm_num) (by norm_num) (by norm_num) (by norm_num) (by norm_num)
  have e1 : (initCursor (F := ℝ) .strict).pc.curX = 0 := by simp [initCursor]
  have e2 : (initCursor (F := ℝ) .strict).pc.curY = 0 := by simp [initCursor]
  simp only [e1, e2] at h
  rw [toFixedP_grid (a := 640) (b := 0) (by norm_num) (by norm_num) (by norm_num) (by norm_num)] at h
  exact ⟨_, h⟩

/-- C17: a triangle. -/
example : Adds (readStartElement 0 "polygon".toList (attrsOf [("points", "1,2 3,4 5,6")]) (initCursor (F := F64) .strict))
    (initCursor .strict) [⟨[.moveTo ⟨64, 128⟩, .lineTo ⟨192, 256⟩, .lineTo ⟨320, 384⟩, .close], defaultStyle⟩] := by
  have := C17_poly_partial (F := F64) (fuel := 0) (closed := true) (attrs := attrsOf [("points", "1,2 3,4 5,6")]) (by decide)
    (ready_init .strict) (p := (num 1, num 2)) (pts := [(num 3, num 4), (num 5, num 6)]) (v := "1,2 3,4 5,6".toList) (by decide)
    ⟨⟨[int "" "1", int "," "2", int " " "3", int "," "4", int " " "5", int "," "6"], []⟩, [num 1, num 2, num 3, num 4, num 5, num 6],
      by decide +kernel, by decide +kernel, by decide +kernel, by decide +kernel⟩ (by decide)
  convert this using 3 <;> decide +kernel

/-- C17: a lone coordinate. -/
example : (readStartElement 0 "polyline".toList (attrsOf [("points", "7")]) (initCursor (F := F64) .strict)).1 = .err .oddPoints :=
  C17_odd (F := F64) (fuel := 0) (closed := false) (attrs := attrsOf [("points", "7")]) (by decide) (ready_init .strict) (args := [num 7])
    (v := "7".toList) (by decide) ⟨⟨[int "" "7"], []⟩, [num 7], by decide +kernel, by decide +kernel, by decide +kernel, by decide +kernel⟩
    (by decide)

set_option maxRecDepth 100000 in
/-- C17 fails for a polyline with two points: `<polyline points="0,0 8,8"/>` draws nothing. -/
theorem C17_two_points_false : pathsOf .strict (elem "svg" [] (elem "polyline" [("points", "0,0 8,8")])) = some [] := by
  decide +kernel

set_option maxRecDepth 100000 in
/-- C17 fails for a polyline without points: the second one in `<polyline points="0,0 1,0 1,1"/><polyline/>` draws the points of the
first. -/
theorem C17_no_points_false :
    pathsOf .strict (elem "svg" [] (elem "polyline" [("points", "0,0 1,0 1,1")] ++ elem "polyline" [])) =
      some [[.moveTo ⟨0, 0⟩, .lineTo ⟨64, 0⟩, .lineTo ⟨64, 64⟩], [.moveTo ⟨0, 0⟩, .lineTo ⟨64, 0⟩, .lineTo ⟨64, 64⟩]] := by
  decide +kernel

/-- C17: a line. -/
example : Adds (readStartElement 0 "line".toList (attrsOf [("y2", "1"), ("x1", "2")]) (initCursor (F := ℝ) .strict))
    (initCursor .strict) [⟨[.moveTo ⟨128, 0⟩, .lineTo ⟨0, 64⟩], defaultStyle⟩] := by
  obtain ⟨A, hA⟩ : ∃ A, A = attrsOf [("y2", "1"), ("x1", "2")] := ⟨_, rfl⟩
  rw [← hA]
  have h := C17_line (F := ℝ) (fuel := 0) (attrs := A) (by rw [hA]; decide) (ready_init .strict)
    (len_dec (n := "x1") (v := "2".toList) (q := 2) (by rw [hA]; decide) (by decide) (by decide +kernel) _ _)
    (len_none (by rw [hA]; decide) _ _) (len_none (by rw [hA]; decide) _ _)
    (len_dec (n := "y2") (v := "1".toList) (q := 1) (by rw [hA]; decide) (by decide) (by decide +kernel) _ _)
  have e1 : (initCursor (F := ℝ) .strict).pc.curX = 0 := by simp [initCursor]
  have e2 : (initCursor (F := ℝ) .strict).pc.curY = 0 := by simp [initCursor]
  simp only [e1, e2, real_add] at h
  rwa [toFixedP_grid (a := 128) (b := 0) (by norm_num) (by norm_num) (by norm_num) (by norm_num),
    toFixedP_grid (a := 0) (b := 64) (by norm_num) (by norm_num) (by norm_num) (by norm_num)] at h

end Examples

end GoSvg
