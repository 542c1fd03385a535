import Verif.Lemmas.ArcCentre64
import Verif.Props.Arcs

/-! One circular arc of a path in binary64, beside the arc that SVG prescribes. -/

namespace GoSvg

open Spec

/-- The circle of an arc without rotation, in exact arithmetic. -/
theorem round_arc [GoEnv] {R X0 Y0 X1 Y1 : ℝ} (hR : 0 < R) (hne : (X0, Y0) ≠ (X1, Y1)) (large sweep : Bool) :
    ∃ (h ρ t X Y η δ : ℝ), 0 < h ∧ ((X1 - X0) / 2) ^ 2 + ((Y1 - Y0) / 2) ^ 2 = h ^ 2 ∧ 0 ≤ t ∧ ρ = max R h ∧ h ^ 2 * (1 + t ^ 2) = ρ ^ 2 ∧
      (let s : ℝ := if (!sweep && !large) || (!!sweep && !!large) then 1 else -1
       X = X0 + ((X1 - X0) / 2 + s * ((Y1 - Y0) / 2 * t)) ∧ Y = Y0 + ((Y1 - Y0) / 2 - s * ((X1 - X0) / 2 * t))) ∧
      IsArc R R 0 large sweep X0 Y0 X1 Y1 ⟨X, Y, ρ, ρ, 0⟩ η δ := by
  obtain ⟨l, hl⟩ : ∃ l : ℝ, GoFloat.eq l 0 = !large := by
    cases large
    · exact ⟨0, by simp⟩
    · exact ⟨1, by simp⟩
  obtain ⟨w, hw⟩ : ∃ w : ℝ, GoFloat.eq w 0 = !sweep := by
    cases sweep
    · exact ⟨0, by simp⟩
    · exact ⟨1, by simp⟩
  have hA := isArc_of (rot := 0) (large := l) (sweep := w) hR hR hne
  have hf := findEllipseCenter_eq (rot := 0) hR hR hne (!sweep) (!large)
  have hL := halfChord_pos (rot := 0) hR hR hne
  obtain ⟨g1, g2, g3, g4⟩ := hr_spec (ra := R) (rot := 0) hR hL
  simp only [zero_mul, zero_div, hl, hw, Bool.not_not] at hA hf
  obtain ⟨f1, f2, f3⟩ := hf
  generalize findEllipseCenter R R 0 X0 Y0 X1 Y1 (!sweep) (!large) = c at hA f1 f2 f3
  have hm : halfChord R R 0 X0 Y0 X1 Y1 = ((X1 - X0) / 2, (Y1 - Y0) / 2) := by
    simp [halfChord, fr, div_self hR.ne']
  simp only [centreFr] at f3
  rw [hm] at g3 g4 hL
  simp only [hm] at f3
  generalize hrOf R R 0 X0 Y0 X1 Y1 = t at *
  generalize scaleOf R R 0 X0 Y0 X1 Y1 = k at *
  have hs : sq ((X1 - X0) / 2, (Y1 - Y0) / 2) = ((X1 - X0) / 2) ^ 2 + ((Y1 - Y0) / 2) ^ 2 := by simp only [sq]; ring
  rw [hs] at g3 g4 hL
  simp only [fr, div_self hR.ne', Real.cos_zero, Real.sin_zero, mul_one, mul_zero, add_zero, zero_add, Prod.mk.injEq] at f3
  have hq := Real.sq_sqrt hL.le
  have hq0 := Real.sqrt_pos.2 hL
  obtain ⟨η, hη⟩ : ∃ η, η = (arcDeltaEta ⟨c.ra, c.rb, 0, l, w, X1, Y1⟩ c.cx c.cy X0 Y0).1 := ⟨_, rfl⟩
  obtain ⟨δ, hδ⟩ : ∃ δ, δ = (arcDeltaEta ⟨c.ra, c.rb, 0, l, w, X1, Y1⟩ c.cx c.cy X0 Y0).2 := ⟨_, rfl⟩
  rw [← hη, ← hδ] at hA
  have kR : 0 < k * R := by positivity
  refine ⟨Real.sqrt (((X1 - X0) / 2) ^ 2 + ((Y1 - Y0) / 2) ^ 2), k * R, t, c.cx, c.cy, η, δ, hq0, hq.symm, g1, ?_, ?_, ?_, ?_⟩
  · rcases g4 with g4 | g4
    · rw [g4, one_mul] at g3 ⊢
      rw [max_eq_left]
      refine (abs_le.1 (abs_le_of_sq_le_sq ?_ hR.le)).2
      rw [hq]
      nlinarith [mul_nonneg hL.le (sq_nonneg t)]
    · rw [← g4, Real.sqrt_sq kR.le, max_eq_right]
      nlinarith
  · rw [hq]; exact g3
  · simp only [Bool.not_not] at f3 ⊢
    constructor <;> linarith [f3.1, f3.2]
  · rw [f1, f2] at hA
    exact hA

/-- Between the chord and the angle of an arc of a circle. -/
theorem chord_angle {X Y ρ h X0 Y0 X1 Y1 η δ : ℝ} (half : ((X1 - X0) / 2) ^ 2 + ((Y1 - Y0) / 2) ^ 2 = h ^ 2)
    (s1 : X0 = X + ρ * Real.cos η) (s2 : Y0 = Y + ρ * Real.sin η) (s3 : X1 = X + ρ * Real.cos (η + δ)) (s4 : Y1 = Y + ρ * Real.sin (η + δ)) :
    (ρ * Real.sin (δ / 2)) ^ 2 = h ^ 2 := by
  rw [← half, s1, s2, s3, s4, Real.cos_add, Real.sin_add]
  have q1 := Real.sin_sq_add_cos_sq η
  have q2 := Real.sin_sq_add_cos_sq (δ / 2)
  have e1 : Real.cos δ = 1 - 2 * Real.sin (δ / 2) ^ 2 := by
    have := Real.cos_two_mul (δ / 2)
    rw [show 2 * (δ / 2) = δ by ring] at this
    linarith
  have q3 := Real.sin_sq_add_cos_sq δ
  linear_combination (ρ ^ 2 / 2) * e1 - (ρ ^ 2 / 4) * q3 - (ρ ^ 2 / 4) * (1 + Real.cos δ ^ 2 + Real.sin δ ^ 2 - 2 * Real.cos δ) * q1

/-- The arc is not nearly nothing and not nearly the whole circle. -/
theorem angle_margin {ρ h δ : ℝ} (hρ : 0 < ρ) (h0 : 0 < h) (hh : ρ ≤ 2 ^ 6 * h) (hs : (ρ * Real.sin (δ / 2)) ^ 2 = h ^ 2) (ht : |δ| < 2 * Real.pi) :
    1 / 2 ^ 8 ≤ |δ| ∧ |δ| ≤ 2 * Real.pi - 1 / 2 ^ 8 := by
  have e : Real.sin (|δ| / 2) ^ 2 = Real.sin (δ / 2) ^ 2 := by
    rcases abs_cases δ with ⟨h, -⟩ | ⟨h, -⟩
    · rw [h]
    · rw [h, neg_div, Real.sin_neg, neg_sq]
  rw [mul_pow, ← e, ← mul_pow] at hs
  have n0 : 0 ≤ Real.sin (|δ| / 2) := Real.sin_nonneg_of_nonneg_of_le_pi (by positivity) (by linarith)
  have e2 : ρ * Real.sin (|δ| / 2) = h := by
    have := abs_eq_abs.2 (sq_eq_sq_iff_eq_or_eq_neg.1 hs)
    rwa [abs_of_nonneg (by positivity), abs_of_pos h0] at this
  have e3 : 1 / 2 ^ 6 ≤ Real.sin (|δ| / 2) := by
    by_contra hc
    push Not at hc
    nlinarith
  have a := Real.sin_le (by positivity : 0 ≤ |δ| / 2)
  have b := Real.sin_le (by linarith : 0 ≤ Real.pi - |δ| / 2)
  rw [Real.sin_pi_sub] at b
  constructor <;> linarith

/-- An arc may be described from another turn. -/
theorem isArc_turn {rx ry rot x0 y0 x y η δ : ℝ} {large sweep : Bool} {E : Ellipse} (h : IsArc rx ry rot large sweep x0 y0 x y E η δ) (k : ℤ) :
    IsArc rx ry rot large sweep x0 y0 x y E (η + k * (2 * Real.pi)) δ := by
  have hp : ∀ a, E.point (a + k * (2 * Real.pi)) = E.point a := by
    intro a
    simp only [Ellipse.point, Real.cos_add_int_mul_two_pi, Real.sin_add_int_mul_two_pi]
  refine ⟨h.rotation, h.scale, by rw [hp]; exact h.start, ?_, h.direction, h.size, h.turn⟩
  rw [add_right_comm, hp]
  exact h.stop

namespace F64

variable [Libm]

/-- What one circular arc adds to the path. -/
theorem arcFromA_near [GoEnv] (hL : Accurate) (hA : Angular) {e : Nat} (e1 : 7 ≤ e) (e2 : e ≤ 22) {R X0 Y0 X1 Y1 h : ℝ} (R0 : 2 ^ e / 2 ^ 40 ≤ R)
    (R1 : R ≤ 2 ^ e / 2) (h0 : 0 < h) (half : ((X1 - X0) / 2) ^ 2 + ((Y1 - Y0) / 2) ^ 2 = h ^ 2) (long : 2 ^ e ≤ 2 ^ 7 * h)
    (b1 : |X0| ≤ 2 ^ e / 2) (b2 : |Y0| ≤ 2 ^ e / 2) (b3 : |X1| ≤ 2 ^ e / 2) (b4 : |Y1| ≤ 2 ^ e / 2) {c : PathCursor F64}
    (hx : Is c.curX 0) (hy : Is c.curY 0) {r rot large sweep x y : F64} (hc : c.points = [r, r, rot, large, sweep, x, y]) (hrot : Is rot 0)
    (nr : Near (2 ^ e / 2 ^ 48) r R) (n1 : Near (2 ^ e / 2 ^ 48) c.placeX X0) (n2 : Near (2 ^ e / 2 ^ 48) c.placeY Y0)
    (n3 : Near (2 ^ e / 2 ^ 48) x X1) (n4 : Near (2 ^ e / 2 ^ 48) y Y1) :
    ∃ (E : Ellipse) (η δ : ℝ) (n : Nat) (bs : List Cubic) (ops : Path) (pts : List F64),
      addArcFromA 0 c = { c with points := pts, path := c.path ++ ops, placeX := x, placeY := y } ∧
      IsArc R R 0 (!GoFloat.eq large (num 0)) (!GoFloat.eq sweep (num 0)) X0 Y0 X1 Y1 E η δ ∧
      Traces E η δ n bs ∧ |δ| / n ≤ 0.394 ∧ List.Forall₂ (OpWithin (1 / 64 + E.ra / 2 ^ 12)) ops (bs.map cubicOp) := by
  have P0 : (0 : ℝ) < 2 ^ e := by positivity
  have hR : 0 < R := lt_of_lt_of_le (by positivity) R0
  have hne : (X0, Y0) ≠ (X1, Y1) := by
    intro hh
    rw [Prod.mk.injEq] at hh
    rw [hh.1, hh.2] at half
    nlinarith
  obtain ⟨h', ρ, t, X, Y, η, δ, g0, g1, g2, g3, g4, g5, g6⟩ := round_arc hR hne (!GoFloat.eq large (num 0)) (!GoFloat.eq sweep (num 0))
  have hh : h' = h := by
    have := abs_eq_abs.2 (sq_eq_sq_iff_eq_or_eq_neg.1 (g1.symm.trans half))
    rwa [abs_of_pos g0, abs_of_pos h0] at this
  subst hh
  simp only [Bool.not_not] at g5
  obtain ⟨g7, g8⟩ := g5
  obtain ⟨k1, k2⟩ := centre_near hL e1 e2 R0 R1 h0 long half b1 b2 b3 b4 g2 g3 g4 nr n1 n2 n3 n4 (rot_zero hrot hL) (GoFloat.eq sweep (num 0))
    (GoFloat.eq large (num 0))
  rw [← g7, ← g8] at k2
  obtain ⟨ctr, hctr⟩ : ∃ ctr, ctr = findEllipseCenter r r (rot *. GoFloat.piMul 1 /. num 180) c.placeX c.placeY x y (GoFloat.eq sweep (num 0))
    (GoFloat.eq large (num 0)) := ⟨_, rfl⟩
  rw [← hctr] at k1 k2
  have ρ0 := k2.pos
  have hρ : ρ ≤ 2 ^ 6 * h' := by rw [g3]; exact max_le (by linarith) (by linarith)
  have ρh : h' ≤ ρ := by rw [g3]; exact le_max_right _ _
  have small : (2 : ℝ) ^ e / 2 ^ 48 ≤ ρ / 2 ^ 40 := by
    rw [div_le_div_iff₀ (by positivity) (by positivity)]
    nlinarith
  have hpt := g6.start
  have hst := g6.stop
  simp only [Ellipse.point, Real.cos_zero, Real.sin_zero, mul_one, mul_zero, sub_zero, add_zero, Prod.mk.injEq] at hpt hst
  obtain ⟨m1, m2⟩ := angle_margin ρ0 h0 hρ (chord_angle half hpt.1.symm hpt.2.symm hst.1.symm hst.2.symm) g6.turn
  have k3 : Circ e (ctr.cx +. c.curX) (ctr.cy +. c.curY) ctr.rb X Y ρ :=
    ⟨k2.he, k2.big, k2.small, k2.bX, k2.bY, near_add_zero' k2.cx hx, near_add_zero' k2.cy hy, k2.r⟩
  obtain ⟨k, n, a1, a2, a3, a4, a5⟩ := addArc_near hL hA k3 e1 (p := ⟨ctr.ra, ctr.rb, rot, large, sweep, x, y⟩) k1 rfl hrot
    (near_add_zero' (n1.mono small) hx) (near_add_zero' (n2.mono small) hy) (n3.mono small) (n4.mono small) hpt.1.symm hpt.2.symm hst.1.symm
    hst.2.symm g6.direction m1 m2
  have n0 : (0 : ℝ) < n := by exact_mod_cast (by omega : 0 < n)
  have step : |δ| / n ≤ 0.394 := by rw [div_le_iff₀ n0]; nlinarith
  have ha := isArc_turn g6 k
  refine ⟨⟨X, Y, ρ, ρ, 0⟩, η + k * (2 * Real.pi), δ, n, _,
    (addArc ⟨ctr.ra, ctr.rb, rot, large, sweep, x, y⟩ (ctr.cx +. c.curX) (ctr.cy +. c.curY) (c.placeX +. c.curX) (c.placeY +. c.curY)).1,
    [ctr.ra, ctr.rb, rot, large, sweep, x, y], ?_, ha,
    pieces_trace ⟨X, Y, ρ, ρ, 0⟩ ρ0.ne' ρ0.ne' a1 a2 step, step, ?_⟩
  · unfold addArcFromA
    rw [hc]
    simp only [at_, List.getD_cons_zero, List.getD_cons_succ, List.set_cons_zero, List.set_cons_succ, zero_add]
    rw [← hctr]
    have e5 := congrArg Prod.fst a5
    have e6 := congrArg Prod.snd a5
    simp only at e5 e6
    rw [e5, e6]
  · have := cubics_pieces ⟨X, Y, ρ, ρ, 0⟩ (η + k * (2 * Real.pi)) (δ / n) (alphaOf (δ / n)) n 0
    rw [Nat.zero_add, Nat.cast_zero, mul_zero, add_zero, div_mul_cancel₀ _ n0.ne', ha.start, ha.stop] at this
    rw [← this]
    exact a4

end F64

end GoSvg
