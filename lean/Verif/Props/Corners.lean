import Verif.Lemmas.CornersReal
import Verif.Props.Documents

/-! C83: the rounded corners of rectangles. -/

namespace GoSvg

open Spec

section

variable [GoEnv]

/-- C83, in exact arithmetic: a rectangle with equal radii (after limiting them to half the sides) of at least a sixty-fourth is stored as its outline with
round corners, each point less than 5/64 away. What is missing for the full claim: radii that differ, for which it is false (C16). -/
theorem C83_exact_partial {fuel : Nat} (hf : 1 ≤ fuel) {attrs : List Attr} (hd : Distinct attrs) {c : Cursor ℝ} {st : PathStyle ℝ} (hr : Ready c st)
    {x y w h rx ry r : ℝ} (hv : IsRect c.svg.viewBox attrs x y w h rx ry) (hw : 0 < w) (hh : 0 < h) (hx : 0 < rx) (hy : 0 < ry)
    (h1 : r = min rx (w / 2)) (h2 : r = min ry (h / 2)) (hr0 : 1 / 64 ≤ r) (hr1 : r ≤ 2 ^ 19) (bx : |x + c.pc.curX| ≤ 2 ^ 20) (by' : |y + c.pc.curY| ≤ 2 ^ 20)
    (bw : w ≤ 2 ^ 20) (bh : h ≤ 2 ^ 20) :
    ∃ gs ops, RoundedRect (x + c.pc.curX) (y + c.pc.curY) w h r gs ∧ List.Forall₂ (OpWithin (5 / 64)) ops gs ∧
      Adds (readStartElement fuel "rect".toList attrs c) c [⟨ops, st⟩] := by
  obtain ⟨X, hX⟩ : ∃ X, X = x + c.pc.curX := ⟨_, rfl⟩
  obtain ⟨Y, hY⟩ : ∃ Y, Y = y + c.pc.curY := ⟨_, rfl⟩
  rw [← hX] at bx
  rw [← hY] at by'
  rw [← hX, ← hY]
  have r0 : 0 < r := by linarith
  have hrw : r ≤ w := by rw [h1]; exact (min_le_right _ _).trans (by linarith)
  have hrh : r ≤ h := by rw [h2]; exact (min_le_right _ _).trans (by linarith)
  obtain ⟨x1, x2⟩ := abs_le.1 bx
  obtain ⟨y1, y2⟩ := abs_le.1 by'
  have B : ∀ {v : ℝ}, -2 ^ 20 ≤ v → v ≤ 2 ^ 20 + 2 ^ 20 → |v| ≤ 2 ^ 22 := by
    intro v v1 v2
    rw [abs_le]
    constructor <;> norm_num at * <;> linarith
  have bX0 : |X| ≤ 2 ^ 22 := B x1 (by linarith)
  have bY0 : |Y| ≤ 2 ^ 22 := B y1 (by linarith)
  have bX1 : |X + r| ≤ 2 ^ 22 := B (by linarith) (by linarith)
  have bY1 : |Y + r| ≤ 2 ^ 22 := B (by linarith) (by linarith)
  have bX2 : |X + w - r| ≤ 2 ^ 22 := B (by linarith) (by linarith)
  have bY2 : |Y + h - r| ≤ 2 ^ 22 := B (by linarith) (by linarith)
  have bX3 : |X + w| ≤ 2 ^ 22 := B (by linarith) (by linarith)
  have bY3 : |Y + h| ≤ 2 ^ 22 := B (by linarith) (by linarith)
  have hp := toFix_pos hr0 hr1
  have hrs : |r| < 2 ^ 25 := by rw [abs_of_pos r0]; exact hr1.trans_lt (by norm_num)
  obtain ⟨⟨g1, a1, b1⟩, -, -, -⟩ := corners_real (near_circle_real bX2 bY1 r0.le hr1) hp hf
  obtain ⟨-, ⟨g2, a2, b2⟩, -, -⟩ := corners_real (near_circle_real bX2 bY2 r0.le hr1) hp hf
  obtain ⟨-, -, ⟨g3, a3, b3⟩, -⟩ := corners_real (near_circle_real bX1 bY2 r0.le hr1) hp hf
  obtain ⟨-, -, -, ⟨g4, a4, b4⟩⟩ := corners_real (near_circle_real bX1 bY1 r0.le hr1) hp hf
  refine ⟨_, [.moveTo (toFixedP (X + r) Y), .lineTo (toFixedP (X + w - r) Y)] ++ g1 ++
        [.lineTo (toFixedP (X + w) (Y + h - r))] ++ g2 ++ [.lineTo (toFixedP (X + r) (Y + h))] ++ g3 ++
        [.lineTo (toFixedP X (Y + r))] ++ g4 ++ [.close], rounded_rect X Y w h r, ?_, ?_⟩
  · exact List.rel_append (List.rel_append (List.rel_append (List.rel_append (List.rel_append (List.rel_append (List.rel_append (List.rel_append
      (.cons (.moveTo (fixed_within bX1 bY0)) (.cons (.lineTo (fixed_within bX2 bY0)) .nil)) b1) (.cons (.lineTo (fixed_within bX3 bY2)) .nil)) b2)
      (.cons (.lineTo (fixed_within bX1 bY3)) .nil)) b3) (.cons (.lineTo (fixed_within bX0 bY1)) .nil)) b4) (.cons .close .nil)
  have lim : ∀ a b : ℝ, (if GoFloat.lt b (a * 2) = true then b / 2 else a) = min a (b / 2) := by
    intro a b
    by_cases h : b < a * 2
    · rw [if_pos ((real_lt _ _).2 h), min_eq_right (by linarith)]
    · rw [if_neg (fun hh => h ((real_lt _ _).1 hh)), min_eq_left (by linarith)]
  have e1 : w + x + c.pc.curX = X + w := by rw [hX]; ring
  have e2 : h + y + c.pc.curY = Y + h := by rw [hY]; ring
  have t1 : ∀ {v : ℝ}, |v| < 2 ^ 25 → toFixedP 0 (-v) = ⟨0, -toFix v⟩ := by
    intro v hv
    unfold toFixedP
    rw [toFix_zero, toFix_neg hv]
  have t2 : toFixedP r 0 = ⟨toFix r, 0⟩ := by unfold toFixedP; rw [toFix_zero]
  have t3 : toFixedP 0 r = ⟨0, toFix r⟩ := by unfold toFixedP; rw [toFix_zero]
  have t4 : toFixedP (-r) 0 = ⟨-toFix r, 0⟩ := by unfold toFixedP; rw [toFix_zero, toFix_neg hrs]
  have ho : rectOps fuel c.pc.curX c.pc.curY ⟨x, y, w, h, rx, ry⟩ =
      some ([.moveTo (toFixedP (X + r) Y), .lineTo (toFixedP (X + w - r) Y)] ++ g1 ++
        [.lineTo (toFixedP (X + w) (Y + h - r))] ++ g2 ++ [.lineTo (toFixedP (X + r) (Y + h))] ++ g3 ++
        [.lineTo (toFixedP X (Y + r))] ++ g4 ++ [.close]) := by
    unfold rectOps
    rw [if_neg (by simp [(real_eq_false _ _).2, hw.ne', hh.ne'])]
    simp only [real_num, Rat.cast_zero, (real_eq_false _ _).2 hx.ne', (real_eq_false _ _).2 hy.ne', Bool.and_false, Bool.false_eq_true,
      if_false, real_add, e1, e2]
    rw [← hX, ← hY]
    have hm := round_matrix X w (Y + h / 2) h Y r r rfl
    rw [div_self r0.ne', mul_one, sub_self] at hm
    unfold addRoundRect
    rw [if_neg (by simp [hx, hy])]
    have ew : X + w - X = w := by ring
    have eh : Y + h - Y = h := by ring
    have e64 : ((2 : ℚ) : ℝ) = 2 := by norm_num
    simp only [real_sub, real_mul, real_num, real_div, real_add, e64, ew, eh, lim, ← h1, ← h2] at hm ⊢
    have hI : (⟨1, 0, 0, 1, 0, 0⟩ : Matrix2D ℝ) = Matrix2D.identity := by
      apply Matrix2D.ext' <;> simp [Matrix2D.identity]
    rw [hI] at hm
    rw [hm]
    have y1 : Y + h / 2 - h / 2 * (r / r) = Y := by rw [div_self r0.ne']; ring
    have y2 : Y + h / 2 + h / 2 * (r / r) = Y + h := by rw [div_self r0.ne']; ring
    simp only [y1, y2, real_neg, Rat.cast_zero, t1 hrs, t2, t3, t4, a1, a2, a3, a4, identity_toFixedP]
  simpa using rect_adds hd hr hv ho

/-- C83, for whole documents, in exact arithmetic: such a rectangle anywhere in a drawing is one path of the parsed drawing, its outline with round
corners, each point less than 5/64 away. What is missing for the full claim: as for `C83_exact_partial`. -/
theorem C83_document_partial {fuel : Nat} (hf : 1 ≤ fuel) {m : ErrorMode} {root : Elem} {ch : List Elem} {attrs : List Attr} {lead body post : List Token}
    {s : Svg ℝ} (hp : Parsed fuel m root ch "rect".toList attrs lead body post s)
    {x y w h rx ry r : ℝ} (hv : IsRect s.viewBox attrs x y w h rx ry) (hw : 0 < w) (hh : 0 < h) (hx : 0 < rx) (hy : 0 < ry)
    (h1 : r = min rx (w / 2)) (h2 : r = min ry (h / 2)) (hr0 : 1 / 64 ≤ r) (hr1 : r ≤ 2 ^ 19) (bx : |x| ≤ 2 ^ 20) (by' : |y| ≤ 2 ^ 20)
    (bw : w ≤ 2 ^ 20) (bh : h ≤ 2 ^ 20) :
    Contributes fuel m (lead ++ .start root.name root.attrs :: body) (.start "rect".toList attrs) s fun ops =>
      ∃ gs, RoundedRect x y w h r gs ∧ List.Forall₂ (OpWithin (5 / 64)) ops gs := by
  obtain ⟨l, hl⟩ := hp.result
  refine stands_contributes hp.place hl fun c st hr hcx hcy hb => ?_
  rw [← hb] at hv
  have e0 : (num 0 : ℝ) = 0 := by simp
  rw [e0] at hcx hcy
  obtain ⟨gs, ops, k1, k2, k3⟩ := C83_exact_partial hf hp.distinct hr hv hw hh hx hy h1 h2 hr0 hr1 (by rwa [hcx, add_zero]) (by rwa [hcy, add_zero]) bw bh
  rw [hcx, hcy, add_zero, add_zero] at k1
  exact ⟨ops, ⟨gs, k1, k2⟩, k3⟩

end

section Examples

attribute [local instance] asciiEnv

/-- The hypotheses are met by `<rect width="40" height="40" rx="10" ry="10"/>`. -/
example : ∃ gs ops, RoundedRect 0 0 40 40 10 gs ∧ List.Forall₂ (OpWithin (5 / 64)) ops gs ∧
    Adds (readStartElement 1 "rect".toList (exRect "10" "10") (initCursor (F := ℝ) .strict)) (initCursor .strict) [⟨ops, defaultStyle⟩] := by
  have hv := ex_rect (rx := "10") (ry := "10") (q := 10) (q' := 10) (by decide) (by decide +kernel) (by decide) (by decide +kernel)
    (initCursor (F := ℝ) .strict).svg.viewBox
  have e1 : (initCursor (F := ℝ) .strict).pc.curX = 0 := by simp [initCursor]
  have e2 : (initCursor (F := ℝ) .strict).pc.curY = 0 := by simp [initCursor]
  have := C83_exact_partial (fuel := 1) le_rfl (exRect_distinct _ _) (ready_init .strict) hv (r := 10) (by norm_num) (by norm_num) (by norm_num)
    (by norm_num) (by norm_num) (by norm_num) (by norm_num) (by norm_num) (by norm_num [e1]) (by norm_num [e2]) (by norm_num) (by norm_num)
  rwa [e1, e2, add_zero] at this

/-- A rounded square in a group with a transform. -/
example : ∃ s : Svg ℝ, Contributes 8 .strict ([] ++ .start placeRoot.name placeRoot.attrs :: placeBody) (.start "rect".toList (exRect "10" "10")) s fun ops =>
    ∃ gs, RoundedRect 0 0 40 40 10 gs ∧ List.Forall₂ (OpWithin (5 / 64)) ops gs := by
  have hv := ex_rect (rx := "10") (ry := "10") (q := 10) (q' := 10) (by decide) (by decide +kernel) (by decide) (by decide +kernel)
  obtain ⟨s, hs⟩ := place_adds (F := ℝ) "rect" (exRect "10" "10") (exRect_distinct _ _) (by decide +kernel) (by decide +kernel)
    fun c st hr h1 h2 => by
      have e0 : (num 0 : ℝ) = 0 := by simp
      rw [e0] at h1 h2
      obtain ⟨gs, ops, -, -, k⟩ := C83_exact_partial (fuel := 8) (by norm_num) (exRect_distinct _ _) hr (hv c.svg.viewBox) (r := 10) (by norm_num) (by norm_num)
        (by norm_num) (by norm_num) (by norm_num) (by norm_num) (by norm_num) (by norm_num) (by norm_num [h1]) (by norm_num [h2]) (by norm_num)
        (by norm_num)
      exact ⟨_, k⟩
  refine ⟨s, ?_⟩
  have := C83_document_partial (by norm_num) hs (hv s.viewBox) (r := 10) (by norm_num) (by norm_num) (by norm_num) (by norm_num) (by norm_num)
    (by norm_num) (by norm_num) (by norm_num) (by norm_num) (by norm_num) (by norm_num) (by norm_num)
  simpa using this

end Examples

end GoSvg
