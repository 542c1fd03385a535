import Verif.Lemmas.ArcReal

/-! The loop over the cubics of a circular arc in binary64. All errors are in units of `ρ / 2^18`, where `ρ` is the radius. -/

namespace GoSvg.F64

open Spec

variable [Libm]

theorem near_sin' (hA : Angular) {d : ℝ} {x : F64} {r : ℝ} (h : Near d x r) (hb : |r| + d ≤ 10) :
    Near (1 / 2 ^ 50 + d) (GoFloat.sin x) (Real.sin r) := by
  obtain ⟨p, h1, h2⟩ := h
  have hp : |(p : ℝ)| ≤ 10 := by linarith [abs_sub_abs_le_abs_sub (p : ℝ) r]
  obtain ⟨q, q1, q2⟩ := hA.sin x p h1 (by exact_mod_cast hp)
  refine ⟨q, q1, ?_⟩
  have := abs_sub_le (q : ℝ) (Real.sin p) (Real.sin r)
  linarith [abs_sin_sub_le p r]

theorem near_cos' (hA : Angular) {d : ℝ} {x : F64} {r : ℝ} (h : Near d x r) (hb : |r| + d ≤ 10) :
    Near (1 / 2 ^ 50 + d) (GoFloat.cos x) (Real.cos r) := by
  obtain ⟨p, h1, h2⟩ := h
  have hp : |(p : ℝ)| ≤ 10 := by linarith [abs_sub_abs_le_abs_sub (p : ℝ) r]
  obtain ⟨q, q1, q2⟩ := hA.cos x p h1 (by exact_mod_cast hp)
  refine ⟨q, q1, ?_⟩
  have := abs_sub_le (q : ℝ) (Real.cos p) (Real.cos r)
  linarith [abs_cos_sub_le p r]

/-- The centre and the radius that the code has, and those of the arc. -/
structure Circ (e : Nat) (cx cy r : F64) (X Y ρ : ℝ) : Prop where
  he : e ≤ 22
  big : 2 ^ e ≤ 2 ^ 7 * ρ
  small : ρ ≤ 2 ^ e
  bX : |X| ≤ 2 * 2 ^ e
  bY : |Y| ≤ 2 * 2 ^ e
  cx : Near (9 / 8 * (ρ / 2 ^ 18)) cx X
  cy : Near (9 / 8 * (ρ / 2 ^ 18)) cy Y
  r : Near (1 / 2 ^ 10 * (ρ / 2 ^ 18)) r ρ

section
variable {e : Nat} {cx cy r : F64} {X Y ρ : ℝ}

omit [Libm] in
theorem Circ.pos (h : Circ e cx cy r X Y ρ) : 0 < ρ := by
  have := h.big
  have : (0 : ℝ) < 2 ^ e := by positivity
  linarith

theorem circ_trig (h : Circ e cx cy r X Y ρ) {c : F64} {C : ℝ} (hc : Near (21 / 2 ^ 18 + 1 / 2 ^ 50) c C) (hC : |C| ≤ 1) :
    Near (22 * (ρ / 2 ^ 18)) (r *. c) (ρ * C) ∧ |ρ * C| ≤ ρ := by
  have e2 := pow_two_more e
  have p0 := h.pos
  have hb := h.big
  have hs := h.small
  have hb' : |ρ * C| ≤ ρ := by rw [abs_mul, abs_of_pos p0]; exact mul_le_of_le_one_right p0.le hC
  have t1 : 1 / 2 ^ 10 * (ρ / 2 ^ 18) * |C| ≤ 1 / 2 ^ 10 * (ρ / 2 ^ 18) := mul_le_of_le_one_right (by positivity) hC
  refine ⟨(near_mul h.r hc (E := e + 2) (by have := h.he; omega) ?_).mono ?_, hb'⟩
  · rw [abs_of_pos p0, e2]; norm_num at *; linarith
  · rw [abs_of_pos p0, e2]; norm_num at *; linarith

variable {η : ℝ} {eta : F64}

/-- The points computed for the circle. -/
theorem circ_point (hA : Angular) (h : Circ e cx cy r X Y ρ) {s0 c1 : F64} (hs : Is s0 0) (hc : Is c1 1)
    (hη : Near (21 / 2 ^ 18) eta η) (hb : |η| ≤ 9.9) :
    Near (24 * (ρ / 2 ^ 18)) (ellipsePointAt r r s0 c1 eta cx cy).1 ((Ellipse.mk X Y ρ ρ 0).point η).1 ∧
    Near (24 * (ρ / 2 ^ 18)) (ellipsePointAt r r s0 c1 eta cx cy).2 ((Ellipse.mk X Y ρ ρ 0).point η).2 := by
  have c46 := (near_cos' hA hη (by norm_num at hb ⊢; linarith)).mono (by linarith : (1 : ℝ) / 2 ^ 50 + 21 / 2 ^ 18 ≤ 21 / 2 ^ 18 + 1 / 2 ^ 50)
  have s46 := (near_sin' hA hη (by norm_num at hb ⊢; linarith)).mono (by linarith : (1 : ℝ) / 2 ^ 50 + 21 / 2 ^ 18 ≤ 21 / 2 ^ 18 + 1 / 2 ^ 50)
  obtain ⟨nA, bA⟩ := circ_trig h c46 (Real.abs_cos_le_one η)
  obtain ⟨nB, bB⟩ := circ_trig h s46 (Real.abs_sin_le_one η)
  have e2 := pow_two_more e
  have p0 := h.pos
  have key : ∀ {x y : F64} {p q : ℝ}, Near (9 / 8 * (ρ / 2 ^ 18)) x p → |p| ≤ 2 * 2 ^ e → Near (22 * (ρ / 2 ^ 18)) y q → |q| ≤ ρ →
      Near (24 * (ρ / 2 ^ 18)) (x +. y) (p + q) := by
    intro x y p q hx hp hy hq
    have := abs_add_le p q
    have := h.big
    have := h.small
    refine (near_add hx hy (E := e + 2) (by have := h.he; omega) ?_).mono ?_
    · rw [e2]; norm_num at *; linarith
    · rw [e2]; norm_num at *; linarith
  unfold ellipsePointAt Ellipse.point
  simp only [Real.cos_zero, Real.sin_zero, mul_one, mul_zero, sub_zero, add_zero]
  exact ⟨near_sub_zero (key h.cx h.bX (near_mul_one nA hc) bA) (is_mul_zero nB hs),
    key (near_add_zero' h.cy (is_mul_zero nA hs)) h.bY (near_mul_one nB hc) bB⟩

/-- The tangents computed for the circle. -/
theorem circ_tangent (hA : Angular) (h : Circ e cx cy r X Y ρ) {s0 c1 : F64} (hs : Is s0 0) (hc : Is c1 1)
    (hη : Near (21 / 2 ^ 18) eta η) (hb : |η| ≤ 9.9) :
    Near (22 * (ρ / 2 ^ 18)) (ellipsePrime r r s0 c1 eta cx cy).1 ((Ellipse.mk X Y ρ ρ 0).tangent η).1 ∧
    Near (22 * (ρ / 2 ^ 18)) (ellipsePrime r r s0 c1 eta cx cy).2 ((Ellipse.mk X Y ρ ρ 0).tangent η).2 := by
  have c46 := (near_cos' hA hη (by norm_num at hb ⊢; linarith)).mono (by linarith : (1 : ℝ) / 2 ^ 50 + 21 / 2 ^ 18 ≤ 21 / 2 ^ 18 + 1 / 2 ^ 50)
  have s46 := (near_sin' hA hη (by norm_num at hb ⊢; linarith)).mono (by linarith : (1 : ℝ) / 2 ^ 50 + 21 / 2 ^ 18 ≤ 21 / 2 ^ 18 + 1 / 2 ^ 50)
  obtain ⟨nA, -⟩ := circ_trig h s46 (Real.abs_sin_le_one η)
  obtain ⟨nB, -⟩ := circ_trig h c46 (Real.abs_cos_le_one η)
  have nA := near_neg nA
  unfold ellipsePrime Ellipse.tangent
  simp only [Real.cos_zero, Real.sin_zero, mul_one, mul_zero, sub_zero, zero_add]
  exact ⟨near_sub_zero (near_mul_one nA hc) (is_mul_zero nB hs), near_zero_add (near_mul_one nB hc) (is_mul_zero nA hs)⟩

omit [Libm] in
theorem circ_bounds (h : Circ e cx cy r X Y ρ) (η : ℝ) :
    (|((Ellipse.mk X Y ρ ρ 0).point η).1| ≤ 3 * 2 ^ e ∧ |((Ellipse.mk X Y ρ ρ 0).point η).2| ≤ 3 * 2 ^ e) ∧
    |((Ellipse.mk X Y ρ ρ 0).tangent η).1| ≤ ρ ∧ |((Ellipse.mk X Y ρ ρ 0).tangent η).2| ≤ ρ := by
  have p0 := h.pos
  have bA : |ρ * Real.cos η| ≤ ρ := by
    rw [abs_mul, abs_of_pos p0]; exact mul_le_of_le_one_right p0.le (Real.abs_cos_le_one η)
  have bB : |ρ * Real.sin η| ≤ ρ := by
    rw [abs_mul, abs_of_pos p0]; exact mul_le_of_le_one_right p0.le (Real.abs_sin_le_one η)
  have h1 := abs_add_le X (ρ * Real.cos η)
  have h2 := abs_add_le Y (ρ * Real.sin η)
  have := h.bX
  have := h.bY
  have := h.small
  unfold Ellipse.point Ellipse.tangent
  simp only [Real.cos_zero, Real.sin_zero, mul_one, mul_zero, sub_zero, zero_add, add_zero, abs_neg]
  exact ⟨⟨by linarith, by linarith⟩, bB, bA⟩

/-- The tangent times its factor. -/
theorem circ_arm (h : Circ e cx cy r X Y ρ) {al t : F64} {α τ : ℝ} (hal : Near (8 / 2 ^ 18) al α) (hα : |α| ≤ 1 / 5)
    (ht : Near (22 * (ρ / 2 ^ 18)) t τ) (hτ : |τ| ≤ ρ) : Near (13 * (ρ / 2 ^ 18)) (al *. t) (α * τ) ∧ |α * τ| ≤ ρ / 5 := by
  have e2 := pow_two_more e
  have p0 := h.pos
  have hb := h.big
  have hs := h.small
  have t1 : 8 / 2 ^ 18 * |τ| ≤ 8 / 2 ^ 18 * ρ := mul_le_mul_of_nonneg_left hτ (by positivity)
  have t2 : |α| * (22 * (ρ / 2 ^ 18)) ≤ 1 / 5 * (22 * (ρ / 2 ^ 18)) := mul_le_mul_of_nonneg_right hα (by positivity)
  have t4 : |α * τ| ≤ ρ / 5 := by
    rw [abs_mul]
    nlinarith [abs_nonneg α, abs_nonneg τ]
  refine ⟨(near_mul hal ht (E := e + 2) (by have := h.he; omega) ?_).mono ?_, t4⟩
  · rw [e2]; norm_num at *; linarith
  · rw [e2]; norm_num at *; linarith

/-- A stored coordinate of a point plus or minus an arm. -/
theorem circ_control (h : Circ e cx cy r X Y ρ) {x y : F64} {p s : ℝ} (hx : Near (24 * (ρ / 2 ^ 18)) x p) (hp : |p| ≤ 3 * 2 ^ e)
    (hy : Near (13 * (ρ / 2 ^ 18)) y s ∧ |s| ≤ ρ / 5) :
    |(toFix (x +. y) / 64 : ℝ) - (p + s)| < 1 / 64 + ρ / 2 ^ 12 ∧
    |(toFix (x -. y) / 64 : ℝ) - (p - s)| < 1 / 64 + ρ / 2 ^ 12 ∧ |(toFix x / 64 : ℝ) - p| < 1 / 64 + ρ / 2 ^ 12 := by
  have e2 := pow_two_more e
  have p0 := h.pos
  have hb := h.big
  have hs := h.small
  have pe22 : (2 : ℝ) ^ e ≤ 2 ^ 22 := pow_le_pow_right₀ (by norm_num) h.he
  have := abs_add_le p s
  have := abs_sub p s
  have he := h.he
  obtain ⟨hy, hs'⟩ := hy
  refine ⟨near_fix ((near_add hx hy (E := e + 2) (by omega) ?_).mono ?_) ?_, near_fix ((near_sub hx hy (E := e + 2) (by omega) ?_).mono ?_) ?_,
    near_fix (hx.mono ?_) ?_⟩ <;> first | (rw [e2]; norm_num at *; linarith) | (norm_num at *; linarith)

/-- What the loop stores for a circular arc. -/
theorem circ_loop (hA : Angular) (h : Circ e cx cy r X Y ρ) {p : ArcArgs F64} (hp1 : p.rx = r) (hp2 : p.ry = r) {stop : ℝ × ℝ}
    (hpx : Near (24 * (ρ / 2 ^ 18)) p.x stop.1) (hpy : Near (24 * (ρ / 2 ^ 18)) p.y stop.2) (hst : |stop.1| ≤ 3 * 2 ^ e ∧ |stop.2| ≤ 3 * 2 ^ e)
    {s0 c1 z dEta al : F64} (hs : Is s0 0) (hc : Is c1 1) {η θ : ℝ} {N : Nat}
    (hang : ∀ i : Nat, i ≤ N → Near (21 / 2 ^ 18) (z +. dEta *. GoFloat.ofInt (i : ℤ)) (η + θ * i) ∧ |η + θ * i| ≤ 9.9)
    (hal : Near (8 / 2 ^ 18) al (alphaOf θ)) (hα : |alphaOf θ| ≤ 1 / 5) (n : Nat) : ∀ (i : Nat), i + n ≤ N →
    ∀ (lx ly ldx ldy : F64) (p0 : ℝ × ℝ), Near (24 * (ρ / 2 ^ 18)) lx p0.1 → Near (24 * (ρ / 2 ^ 18)) ly p0.2 →
    |p0.1| ≤ 3 * 2 ^ e ∧ |p0.2| ≤ 3 * 2 ^ e →
    Near (22 * (ρ / 2 ^ 18)) ldx ((Ellipse.mk X Y ρ ρ 0).tangent (η + θ * i)).1 →
    Near (22 * (ρ / 2 ^ 18)) ldy ((Ellipse.mk X Y ρ ρ 0).tangent (η + θ * i)).2 →
    List.Forall₂ (OpWithin (1 / 64 + ρ / 2 ^ 12)) (ellLoop p cx cy s0 c1 z dEta al n (i + 1) lx ly ldx ldy).1
      ((cubics ⟨X, Y, ρ, ρ, 0⟩ η θ (alphaOf θ) stop n i p0).map cubicOp) ∧
    (1 ≤ n → (ellLoop p cx cy s0 c1 z dEta al n (i + 1) lx ly ldx ldy).2 = (p.x, p.y)) := by
  induction n with
  | zero => intros; exact ⟨.nil, by simp⟩
  | succ n ih =>
    intro i hi lx ly ldx ldy p0 hlx hly hp0 hldx hldy
    obtain ⟨ang, anb⟩ := hang (i + 1) (by omega)
    obtain ⟨p3, hp3⟩ : ∃ p3 : ℝ × ℝ, p3 = if n = 0 then stop else (Ellipse.mk X Y ρ ρ 0).point (η + θ * (i + 1 : ℕ)) := ⟨_, rfl⟩
    obtain ⟨P, hP⟩ : ∃ P : F64 × F64, P = if n = 0 then (p.x, p.y) else
      ellipsePointAt p.rx p.ry s0 c1 (z +. dEta *. GoFloat.ofInt ((i + 1 : ℕ) : ℤ)) cx cy := ⟨_, rfl⟩
    obtain ⟨q1, q2⟩ := circ_point hA h hs hc ang anb
    have hbP : |p3.1| ≤ 3 * 2 ^ e ∧ |p3.2| ≤ 3 * 2 ^ e := by
      rw [hp3]
      split
      · exact hst
      · exact (circ_bounds h _).1
    have hP1 : Near (24 * (ρ / 2 ^ 18)) P.1 p3.1 ∧ Near (24 * (ρ / 2 ^ 18)) P.2 p3.2 := by
      rw [hP, hp3]
      split
      · exact ⟨hpx, hpy⟩
      · rw [hp1, hp2]; exact ⟨q1, q2⟩
    obtain ⟨T, hT⟩ : ∃ T : F64 × F64, T = ellipsePrime p.rx p.ry s0 c1 (z +. dEta *. GoFloat.ofInt ((i + 1 : ℕ) : ℤ)) cx cy := ⟨_, rfl⟩
    obtain ⟨t1, t2⟩ := circ_tangent hA h hs hc ang anb
    rw [hp1, hp2] at hT
    rw [← hT] at t1 t2
    have hrun : ellLoop p cx cy s0 c1 z dEta al (n + 1) (i + 1) lx ly ldx ldy =
        (Op.cubicTo (toFixedP (lx +. al *. ldx) (ly +. al *. ldy)) (toFixedP (P.1 -. al *. T.1) (P.2 -. al *. T.2)) (toFixedP P.1 P.2) ::
          (ellLoop p cx cy s0 c1 z dEta al n (i + 1 + 1) P.1 P.2 T.1 T.2).1, (ellLoop p cx cy s0 c1 z dEta al n (i + 1 + 1) P.1 P.2 T.1 T.2).2) := by
      rw [hT, hP, ellLoop, hp1, hp2]
    rw [hrun, cubics]
    simp only [← hp3, List.map_cons]
    have b1 := (circ_bounds h (η + θ * i)).2
    have b2 := (circ_bounds h (η + θ * (i + 1 : ℕ))).2
    have k1 := circ_control h hlx hp0.1 (circ_arm h hal hα hldx b1.1)
    have k2 := circ_control h hly hp0.2 (circ_arm h hal hα hldy b1.2)
    have k3 := circ_control h hP1.1 hbP.1 (circ_arm h hal hα t1 b2.1)
    have k4 := circ_control h hP1.2 hbP.2 (circ_arm h hal hα t2 b2.2)
    have ih := ih (i + 1) (by omega) _ _ _ _ _ hP1.1 hP1.2 hbP t1 t2
    refine ⟨.cons (.cubicTo ⟨k1.1, k2.1⟩ ⟨k3.2.1, k4.2.1⟩ ⟨k3.2.2, k4.2.2⟩) ih.1, fun _ => ?_⟩
    by_cases hn : n = 0
    · subst hn
      rw [if_pos rfl] at hP
      rw [hP]
      rfl
    · exact ih.2 (by omega)

end

end GoSvg.F64
