import Verif.Spec.Libm
import Verif.Lemmas.Sqrt64
import Verif.Lemmas.ArcChain
import Verif.Lemmas.NanArc
import Verif.Props.Float64Shapes
import Verif.Props.ShapeError

/-! The loop over the cubics of an ellipse in binary64. -/

namespace GoSvg.F64

open Spec

variable [Libm]

/-! ### Angles -/

omit [Libm] in
theorem goPi_near : |((goPi : ℚ) : ℝ) - Real.pi| ≤ 1 / 10 ^ 19 := by
  have h1 := Real.pi_gt_d20
  have h2 := Real.pi_lt_d20
  unfold goPi
  rw [abs_le]
  push_cast
  constructor <;> norm_num at h1 h2 ⊢ <;> linarith

theorem near_turn (hL : Accurate) : Near (1 / 2 ^ 50) (GoFloat.piMul 2 : F64) (2 * Real.pi) := by
  have h := goPi_near
  have hpi := Real.pi_lt_d2
  have hpi0 := Real.pi_pos
  have e : (GoFloat.piMul 2 : F64) = roundRat false (2 * goPi) := hL.piMul 2
  rw [e]
  have hd : |((2 * goPi : ℚ) : ℝ) - 2 * Real.pi| ≤ 2 / 10 ^ 19 := by
    push_cast
    rw [← mul_sub, abs_mul, abs_two]
    linarith
  have hb : |2 * Real.pi| + 2 / 10 ^ 19 ≤ 2 ^ 3 := by
    rw [abs_of_pos (by positivity)]
    norm_num at hpi ⊢
    linarith
  have := near_round (roundRat_nearest false (pow_bound (E := 3) (by norm_num) (abs_le_of_near hd hb))) hd (by norm_num) hb
  exact this.mono (by norm_num)

theorem near_neg {d : ℝ} {x : F64} {r : ℝ} (h : Near d x r) : Near d (GoFloat.neg x) (-r) := by
  obtain ⟨p, h1, h2⟩ := h
  refine ⟨-p, is_neg h1, ?_⟩
  push_cast
  rw [← abs_neg]
  convert h2 using 2
  ring

theorem near_ofInt {n : Nat} (h : n < 2 ^ 53) : Near 0 (GoFloat.ofInt (n : ℤ) : F64) (n : ℝ) := by
  have e : (GoFloat.ofInt (n : ℤ) : F64) = num (n : ℚ) := by
    show roundRat false ((n : ℤ) : ℚ) = roundRat false (n : ℚ)
    rw [Int.cast_natCast]
  have := near_is (is_num (q := (n : ℚ)) (rep_nat h))
  rw [e]
  simpa using this

theorem near_num {n : Nat} (h : n < 2 ^ 53) : Near 0 (num n : F64) (n : ℝ) := by
  have := near_is (is_num (q := (n : ℚ)) (rep_nat h))
  simpa using this

/-- One seventeenth of the turn. -/
noncomputable def stepR : ℝ := -(2 * Real.pi) / 17

omit [Libm] in
theorem stepR_abs : |stepR| ≤ 0.37 := by
  have h1 := Real.pi_lt_d4
  have h2 := Real.pi_pos
  unfold stepR
  rw [neg_div, abs_neg, abs_of_pos (by positivity)]
  norm_num at h1 ⊢
  linarith

theorem near_seventeenth {x : F64} (h : Near (1 / 2 ^ 50) x (-(2 * Real.pi))) : Near (1 / 2 ^ 52) (x /. GoFloat.ofInt 17) stepR := by
  have hs := stepR_abs
  unfold stepR at hs ⊢
  have h17 := near_ofInt (n := 17) (by norm_num)
  have := near_div h h17 (E := 0) (by norm_num) (by norm_num) (by
    push_cast
    norm_num at hs ⊢
    linarith)
  push_cast at this
  exact this.mono (by norm_num)

/-- The angle after `i` steps. -/
theorem near_angle {z x : F64} (hz : Is z 0) (h : Near (1 / 2 ^ 52) x stepR) {i : Nat} (hi : i ≤ 17) :
    Near (1 / 2 ^ 47) (z +. x *. GoFloat.ofInt (i : ℤ)) (0 + stepR * i) ∧ |0 + stepR * i| ≤ 7 := by
  have hs := stepR_abs
  have hi' : (i : ℝ) ≤ 17 := by exact_mod_cast hi
  have hi0 : (0 : ℝ) ≤ i := by positivity
  have hm : |stepR * i| ≤ 6.5 := by
    rw [abs_mul, abs_of_nonneg hi0]
    nlinarith [abs_nonneg stepR]
  refine ⟨?_, by rw [zero_add]; norm_num at hm ⊢; linarith⟩
  have n1 := near_mul h (near_ofInt (n := i) (by omega)) (E := 3) (by norm_num) (by
    rw [abs_of_nonneg hi0]
    norm_num at hm ⊢
    linarith)
  rw [abs_of_nonneg hi0] at n1
  obtain ⟨p, p1, p2⟩ := n1
  refine ⟨p, is_add' hz p1 (zero_add _) (is_rep p1), ?_⟩
  rw [zero_add]
  refine p2.trans ?_
  have : (1 : ℝ) / 2 ^ 52 * i ≤ 1 / 2 ^ 52 * 17 := mul_le_mul_of_nonneg_left hi' (by positivity)
  norm_num at this ⊢
  linarith

omit [Libm] in
theorem abs_sin_sub_le (a b : ℝ) : |Real.sin a - Real.sin b| ≤ |a - b| := by
  rw [Real.sin_sub_sin, abs_mul, abs_mul, abs_two]
  have h1 := Real.abs_sin_le_abs (x := (a - b) / 2)
  have h2 := Real.abs_cos_le_one ((a + b) / 2)
  rw [abs_div, abs_two] at h1
  nlinarith [abs_nonneg (Real.sin ((a - b) / 2)), abs_nonneg (Real.cos ((a + b) / 2))]

omit [Libm] in
theorem abs_cos_sub_le (a b : ℝ) : |Real.cos a - Real.cos b| ≤ |a - b| := by
  rw [Real.cos_sub_cos, abs_mul, abs_mul, abs_neg, abs_two]
  have h1 := Real.abs_sin_le_abs (x := (a - b) / 2)
  have h2 := Real.abs_sin_le_one ((a + b) / 2)
  rw [abs_div, abs_two] at h1
  nlinarith [abs_nonneg (Real.sin ((a - b) / 2)), abs_nonneg (Real.sin ((a + b) / 2))]

omit [Libm] in
theorem cos_ge {a : ℝ} (h : |a| ≤ 1 / 2) : 7 / 8 ≤ Real.cos a := by
  have := Real.one_sub_sq_div_two_le_cos (x := a)
  have h2 := abs_le.1 h
  nlinarith

omit [Libm] in
theorem abs_tan_sub_le {a b : ℝ} (ha : |a| ≤ 1 / 2) (hb : |b| ≤ 1 / 2) : |Real.tan a - Real.tan b| ≤ 2 * |a - b| := by
  have ca := cos_ge ha
  have cb := cos_ge hb
  have e : Real.tan a - Real.tan b = Real.sin (a - b) / (Real.cos a * Real.cos b) := by
    rw [Real.tan_eq_sin_div_cos, Real.tan_eq_sin_div_cos, Real.sin_sub]
    field_simp
  have hp : 1 / 2 ≤ Real.cos a * Real.cos b := by nlinarith
  rw [e, abs_div, abs_of_pos (by linarith : 0 < Real.cos a * Real.cos b), div_le_iff₀ (by linarith)]
  have := Real.abs_sin_le_abs (x := a - b)
  nlinarith [abs_nonneg (a - b)]

theorem near_sin (hL : Accurate) {d : ℝ} {x : F64} {r : ℝ} (h : Near d x r) (hb : |r| + d ≤ 8) :
    Near (1 / 2 ^ 50 + d) (GoFloat.sin x) (Real.sin r) := by
  obtain ⟨p, h1, h2⟩ := h
  have hp : |(p : ℝ)| ≤ 8 := by linarith [abs_sub_abs_le_abs_sub (p : ℝ) r]
  obtain ⟨q, q1, q2⟩ := hL.sin x p h1 (by exact_mod_cast hp)
  refine ⟨q, q1, ?_⟩
  have := abs_sub_le (q : ℝ) (Real.sin p) (Real.sin r)
  linarith [abs_sin_sub_le p r]

theorem near_cos (hL : Accurate) {d : ℝ} {x : F64} {r : ℝ} (h : Near d x r) (hb : |r| + d ≤ 8) :
    Near (1 / 2 ^ 50 + d) (GoFloat.cos x) (Real.cos r) := by
  obtain ⟨p, h1, h2⟩ := h
  have hp : |(p : ℝ)| ≤ 8 := by linarith [abs_sub_abs_le_abs_sub (p : ℝ) r]
  obtain ⟨q, q1, q2⟩ := hL.cos x p h1 (by exact_mod_cast hp)
  refine ⟨q, q1, ?_⟩
  have := abs_sub_le (q : ℝ) (Real.cos p) (Real.cos r)
  linarith [abs_cos_sub_le p r]

theorem near_tan (hL : Accurate) {d : ℝ} {x : F64} {r : ℝ} (h : Near d x r) (hb : |r| + d ≤ 1 / 2) :
    Near (1 / 2 ^ 50 + 2 * d) (GoFloat.tan x) (Real.tan r) := by
  obtain ⟨p, h1, h2⟩ := h
  have hp : |(p : ℝ)| ≤ 1 / 2 := by linarith [abs_sub_abs_le_abs_sub (p : ℝ) r]
  obtain ⟨q, q1, q2⟩ := hL.tan x p h1 (by
    have : |(p : ℝ)| ≤ 1 := by linarith
    exact_mod_cast this)
  refine ⟨q, q1, ?_⟩
  have := abs_sub_le (q : ℝ) (Real.tan p) (Real.tan r)
  have hr : |r| ≤ 1 / 2 := by linarith [(abs_nonneg _).trans h2]
  linarith [abs_tan_sub_le hp hr]

omit [Libm] in
theorem tan_abs {a : ℝ} (h : |a| ≤ 0.197) : |Real.tan a| ≤ 1 / 4 := by
  have hc := cos_ge (a := a) (by norm_num at h ⊢; linarith)
  have hs := Real.abs_sin_le_abs (x := a)
  rw [Real.tan_eq_sin_div_cos, abs_div, abs_of_pos (by linarith : 0 < Real.cos a), div_le_iff₀ (by linarith)]
  norm_num at h ⊢
  linarith

omit [Libm] in
theorem sqrt_bounds {t : ℝ} (h : |t| ≤ 1 / 4) : 2 ≤ Real.sqrt (4 + 3 * t * t) ∧ Real.sqrt (4 + 3 * t * t) ≤ 2.1 := by
  obtain ⟨h1, h2⟩ := abs_le.1 h
  constructor
  · apply Real.le_sqrt_of_sq_le
    nlinarith [mul_self_nonneg t]
  · rw [Real.sqrt_le_left (by norm_num)]
    norm_num
    nlinarith

omit [Libm] in
theorem alpha_abs : |alphaOf stepR| ≤ 1 / 2 := by
  have hs := stepR_abs
  have ht : |Real.tan (stepR / 2)| ≤ 1 / 4 := tan_abs (by rw [abs_div, abs_two]; norm_num at hs ⊢; linarith)
  obtain ⟨h1, h2⟩ := sqrt_bounds ht
  unfold alphaOf
  have hsin := Real.abs_sin_le_one stepR
  rw [abs_div, abs_mul, abs_of_pos (by linarith : 0 < Real.sqrt (4 + 3 * Real.tan (stepR / 2) * Real.tan (stepR / 2)) - 1),
    abs_of_pos (by norm_num : (0 : ℝ) < 3), div_le_iff₀ (by norm_num)]
  norm_num at h2
  nlinarith [abs_nonneg (Real.sin stepR)]

/-- Three times the factor of the tangents for a step of `θ`. -/
theorem near_arms (hL : Accurate) {θ : ℝ} (hs : |θ| ≤ 0.394) {x : F64} (h : Near (1 / 2 ^ 52) x θ) :
    Near (1 / 2 ^ 41) (GoFloat.sin x *. (GoFloat.sqrt (num 4 +. num 3 *. GoFloat.tan (x /. num 2) *. GoFloat.tan (x /. num 2)) -. num 1))
      (Real.sin θ * (Real.sqrt (4 + 3 * Real.tan (θ / 2) * Real.tan (θ / 2)) - 1)) := by
  have n1 : Near 0 (num 1 : F64) 1 := by simpa using near_num (n := 1) (by norm_num)
  have n2 : Near 0 (num 2 : F64) 2 := by simpa using near_num (n := 2) (by norm_num)
  have n3 : Near 0 (num 3 : F64) 3 := by simpa using near_num (n := 3) (by norm_num)
  have n4 : Near 0 (num 4 : F64) 4 := by simpa using near_num (n := 4) (by norm_num)
  have hh : |θ / 2| ≤ 0.197 := by rw [abs_div, abs_two]; norm_num at hs ⊢; linarith
  have ht : |Real.tan (θ / 2)| ≤ 1 / 4 := tan_abs hh
  have half : Near (1 / 2 ^ 52) (x /. num 2) (θ / 2) := (near_div h n2 (E := 0) (by norm_num) (by norm_num) (by
    rw [abs_two]; norm_num at hh ⊢; linarith)).mono (by rw [abs_two]; norm_num)
  have t1 : Near (1 / 2 ^ 49) (GoFloat.tan (x /. num 2)) (Real.tan (θ / 2)) := (near_tan hL half (by
    norm_num at hh ⊢; linarith)).mono (by norm_num)
  have s1 : Near (1 / 2 ^ 49) (GoFloat.sin x) (Real.sin θ) := (near_sin hL h (by norm_num at hs ⊢; linarith)).mono (by norm_num)
  generalize GoFloat.tan (x /. num 2) = T at *
  generalize GoFloat.sin x = S at *
  have hsin := Real.abs_sin_le_one θ
  obtain ⟨r1, r2⟩ := sqrt_bounds ht
  generalize Real.tan (θ / 2) = t at *
  generalize Real.sin θ = s at *
  have a3 : |3 * t| ≤ 3 / 4 := by rw [abs_mul]; norm_num; linarith
  have t2 : Near (1 / 2 ^ 47) (num 3 *. T) (3 * t) := (near_mul n3 t1 (E := 1) (by norm_num) (by
    rw [abs_of_pos (by norm_num : (0 : ℝ) < 3)]; norm_num at a3 ⊢; linarith)).mono (by norm_num)
  have hmul : |3 * t * t| ≤ 3 / 16 := by rw [abs_mul]; nlinarith [abs_nonneg t, abs_nonneg (3 * t)]
  have t3 : Near (1 / 2 ^ 46) (num 3 *. T *. T) (3 * t * t) := (near_mul t2 t1 (E := 0) (by norm_num) (by
    norm_num at *; linarith)).mono (by norm_num at *; linarith)
  have t4 : Near (1 / 2 ^ 45) (num 4 +. num 3 *. T *. T) (4 + 3 * t * t) := (near_add n4 t3 (E := 3) (by norm_num) (by
    have := abs_add_le 4 (3 * t * t)
    norm_num at *
    linarith)).mono (by norm_num)
  have hnn : 0 ≤ 3 * t * t := by nlinarith [mul_self_nonneg t]
  have t5 : Near (1 / 2 ^ 43) (GoFloat.sqrt (num 4 +. num 3 *. T *. T)) (Real.sqrt (4 + 3 * t * t)) :=
    (near_sqrt t4 (by linarith) (by norm_num; linarith) (E := 3) (by norm_num) (by norm_num at *; linarith)).mono (by norm_num)
  generalize Real.sqrt (4 + 3 * t * t) = q at *
  have hq : |q - 1| ≤ 1.1 := by rw [abs_of_nonneg (by linarith)]; norm_num at *; linarith
  have t6 : Near (1 / 2 ^ 42) (GoFloat.sqrt (num 4 +. num 3 *. T *. T) -. num 1) (q - 1) := (near_sub t5 n1 (E := 1) (by norm_num) (by
    norm_num at *; linarith)).mono (by norm_num)
  have hsq : |s * (q - 1)| ≤ 1.1 := by rw [abs_mul]; nlinarith [abs_nonneg s, abs_nonneg (q - 1)]
  have t7 : Near (1 / 2 ^ 41) (S *. (GoFloat.sqrt (num 4 +. num 3 *. T *. T) -. num 1)) (s * (q - 1)) := (near_mul s1 t6 (E := 1) (by norm_num) (by
    norm_num at *; linarith)).mono (by norm_num at *; linarith)
  exact t7

/-- The factor of the tangents. -/
theorem near_alpha (hL : Accurate) {x : F64} (h : Near (1 / 2 ^ 52) x stepR) :
    Near (1 / 2 ^ 42) (GoFloat.sin x *. (GoFloat.sqrt (num 4 +. num 3 *. GoFloat.tan (x /. num 2) *. GoFloat.tan (x /. num 2)) -. num 1) /. num 3)
      (alphaOf stepR) := by
  have n3 : Near 0 (num 3 : F64) 3 := by simpa using near_num (n := 3) (by norm_num)
  have ha := alpha_abs
  unfold alphaOf at ha ⊢
  refine (near_div (near_arms hL (stepR_abs.trans (by norm_num)) h) n3 (E := 0) (by norm_num) (by norm_num) ?_).mono ?_
  · rw [abs_of_pos (by norm_num : (0 : ℝ) < 3)]
    norm_num at *
    linarith
  · rw [abs_of_pos (by norm_num : (0 : ℝ) < 3)]
    norm_num

/-! ### Points and tangents -/

/-- The centre and the radii that the code has are within `d` of exact ones, which are at most `2^e`. -/
structure Rough (e : Nat) (d : ℝ) (cx cy rx ry : F64) (X Y a b : ℝ) : Prop where
  he : e ≤ 23
  d0 : 0 ≤ d
  d1 : d ≤ 2 ^ e / 4
  cx : Near d cx X
  cy : Near d cy Y
  rx : Near d rx a
  ry : Near d ry b
  bX : |X| ≤ 2 ^ e
  bY : |Y| ≤ 2 ^ e
  ba : |a| ≤ 2 ^ e
  bb : |b| ≤ 2 ^ e

omit [Libm] in
theorem pow_two_more (e : Nat) : (2 : ℝ) ^ (e + 2) = 4 * 2 ^ e := by rw [pow_add]; ring

theorem near_trig {e : Nat} (he : e ≤ 23) {d : ℝ} (d0 : 0 ≤ d) (d1 : d ≤ 2 ^ e / 4) {x c : F64} {a C : ℝ} (hx : Near d x a)
    (hc : Near (1 / 2 ^ 46) c C) (ha : |a| ≤ 2 ^ e) (hC : |C| ≤ 1) : Near (d + 2 ^ e / 2 ^ 42) (x *. c) (a * C) := by
  have e2 := pow_two_more e
  have pe : (0 : ℝ) < 2 ^ e := by positivity
  have t1 : d * |C| ≤ d := mul_le_of_le_one_right d0 hC
  have t2 : |a| * (1 / 2 ^ 46) ≤ 2 ^ e * (1 / 2 ^ 46) := mul_le_mul_of_nonneg_right ha (by positivity)
  have t3 : d * (1 / 2 ^ 46) ≤ 2 ^ e / 4 * (1 / 2 ^ 46) := mul_le_mul_of_nonneg_right d1 (by positivity)
  have t4 : |a * C| ≤ 2 ^ e := by
    rw [abs_mul]
    exact (mul_le_of_le_one_right (abs_nonneg _) hC).trans ha
  refine (near_mul hx hc (E := e + 2) (by omega) ?_).mono ?_
  · rw [e2]; norm_num at *; linarith
  · rw [e2]; norm_num at *; linarith

theorem near_mul_one {d : ℝ} {x o : F64} {r : ℝ} (h : Near d x r) (ho : Is o 1) : Near d (x *. o) r := by
  obtain ⟨p, h1, h2⟩ := h
  exact ⟨p, is_mul' h1 ho (mul_one _) (is_rep h1), h2⟩

theorem is_mul_zero {d : ℝ} {x o : F64} {r : ℝ} (h : Near d x r) (ho : Is o 0) : Is (x *. o) 0 := by
  obtain ⟨p, h1, -⟩ := h
  exact is_mul' h1 ho (mul_zero _) rep_zero

theorem near_zero_add {d : ℝ} {x z : F64} {r : ℝ} (h : Near d x r) (hz : Is z 0) : Near d (z +. x) r := by
  obtain ⟨p, h1, h2⟩ := h
  exact ⟨p, is_add' hz h1 (zero_add _) (is_rep h1), h2⟩

theorem near_add_zero' {d : ℝ} {x z : F64} {r : ℝ} (h : Near d x r) (hz : Is z 0) : Near d (x +. z) r := by
  obtain ⟨p, h1, h2⟩ := h
  exact ⟨p, is_add' h1 hz (add_zero _) (is_rep h1), h2⟩

theorem near_sub_zero {d : ℝ} {x z : F64} {r : ℝ} (h : Near d x r) (hz : Is z 0) : Near d (x -. z) r := by
  have hz' := is_neg hz
  rw [neg_zero] at hz'
  exact near_add_zero' h hz'

section Loop

variable {e : Nat} {d : ℝ} {cx cy rx ry : F64} {X Y a b : ℝ}

theorem near_centre (he : e ≤ 23) (d0 : 0 ≤ d) (d1 : d ≤ 2 ^ e / 4) {x y : F64} {r s : ℝ} (hx : Near d x r) (hy : Near (d + 2 ^ e / 2 ^ 42) y s)
    (hr : |r| ≤ 2 ^ e) (hs : |s| ≤ 2 ^ e) : Near (2 * d + 2 ^ e / 2 ^ 41) (x +. y) (r + s) := by
  have e2 := pow_two_more e
  have pe : (0 : ℝ) < 2 ^ e := by positivity
  have := abs_add_le r s
  refine (near_add hx hy (E := e + 2) (by omega) ?_).mono ?_
  · rw [e2]; norm_num at *; linarith
  · rw [e2]; norm_num at *; linarith

/-- The points computed for the ellipse. -/
theorem near_point (h : Rough e d cx cy rx ry X Y a b) {s0 c1 eta : F64} (hs : Is s0 0) (hc : Is c1 1) (hL : Accurate) {η : ℝ}
    (hη : Near (1 / 2 ^ 47) eta η) (hb : |η| ≤ 7) :
    Near (2 * d + 2 ^ e / 2 ^ 41) (ellipsePointAt rx ry s0 c1 eta cx cy).1 ((Ellipse.mk X Y a b 0).point η).1 ∧
    Near (2 * d + 2 ^ e / 2 ^ 41) (ellipsePointAt rx ry s0 c1 eta cx cy).2 ((Ellipse.mk X Y a b 0).point η).2 := by
  have c46 := (near_cos hL hη (by norm_num; linarith)).mono (by norm_num : (1 : ℝ) / 2 ^ 50 + 1 / 2 ^ 47 ≤ 1 / 2 ^ 46)
  have s46 := (near_sin hL hη (by norm_num; linarith)).mono (by norm_num : (1 : ℝ) / 2 ^ 50 + 1 / 2 ^ 47 ≤ 1 / 2 ^ 46)
  have hA := near_trig h.he h.d0 h.d1 h.rx c46 h.ba (Real.abs_cos_le_one η)
  have hB := near_trig h.he h.d0 h.d1 h.ry s46 h.bb (Real.abs_sin_le_one η)
  have bA : |a * Real.cos η| ≤ 2 ^ e := by
    rw [abs_mul]; exact (mul_le_of_le_one_right (abs_nonneg _) (Real.abs_cos_le_one η)).trans h.ba
  have bB : |b * Real.sin η| ≤ 2 ^ e := by
    rw [abs_mul]; exact (mul_le_of_le_one_right (abs_nonneg _) (Real.abs_sin_le_one η)).trans h.bb
  unfold ellipsePointAt Ellipse.point
  simp only [Real.cos_zero, Real.sin_zero, mul_one, mul_zero, sub_zero, add_zero]
  exact ⟨near_sub_zero (near_centre h.he h.d0 h.d1 h.cx (near_mul_one hA hc) h.bX bA) (is_mul_zero hB hs),
    near_centre h.he h.d0 h.d1 (near_add_zero' h.cy (is_mul_zero hA hs)) (near_mul_one hB hc) h.bY bB⟩

/-- The tangents computed for the ellipse. -/
theorem near_tangent (h : Rough e d cx cy rx ry X Y a b) {s0 c1 eta : F64} (hs : Is s0 0) (hc : Is c1 1) (hL : Accurate) {η : ℝ}
    (hη : Near (1 / 2 ^ 47) eta η) (hb : |η| ≤ 7) :
    Near (d + 2 ^ e / 2 ^ 42) (ellipsePrime rx ry s0 c1 eta cx cy).1 ((Ellipse.mk X Y a b 0).tangent η).1 ∧
    Near (d + 2 ^ e / 2 ^ 42) (ellipsePrime rx ry s0 c1 eta cx cy).2 ((Ellipse.mk X Y a b 0).tangent η).2 := by
  have c46 := (near_cos hL hη (by norm_num; linarith)).mono (by norm_num : (1 : ℝ) / 2 ^ 50 + 1 / 2 ^ 47 ≤ 1 / 2 ^ 46)
  have s46 := (near_sin hL hη (by norm_num; linarith)).mono (by norm_num : (1 : ℝ) / 2 ^ 50 + 1 / 2 ^ 47 ≤ 1 / 2 ^ 46)
  have hA := near_neg (near_trig h.he h.d0 h.d1 h.rx s46 h.ba (Real.abs_sin_le_one η))
  have hB := near_trig h.he h.d0 h.d1 h.ry c46 h.bb (Real.abs_cos_le_one η)
  unfold ellipsePrime Ellipse.tangent
  simp only [Real.cos_zero, Real.sin_zero, mul_one, mul_zero, sub_zero, zero_add]
  exact ⟨near_sub_zero (near_mul_one hA hc) (is_mul_zero hB hs), near_zero_add (near_mul_one hB hc) (is_mul_zero hA hs)⟩

omit [Libm] in
theorem point_abs (hX : |X| ≤ 2 ^ e) (hY : |Y| ≤ 2 ^ e) (ha : |a| ≤ 2 ^ e) (hb : |b| ≤ 2 ^ e) (η : ℝ) :
    |((Ellipse.mk X Y a b 0).point η).1| ≤ 2 * 2 ^ e ∧ |((Ellipse.mk X Y a b 0).point η).2| ≤ 2 * 2 ^ e := by
  unfold Ellipse.point
  simp only [Real.cos_zero, Real.sin_zero, mul_one, mul_zero, sub_zero, add_zero]
  have bA : |a * Real.cos η| ≤ 2 ^ e := by
    rw [abs_mul]; exact (mul_le_of_le_one_right (abs_nonneg _) (Real.abs_cos_le_one η)).trans ha
  have bB : |b * Real.sin η| ≤ 2 ^ e := by
    rw [abs_mul]; exact (mul_le_of_le_one_right (abs_nonneg _) (Real.abs_sin_le_one η)).trans hb
  have := abs_add_le X (a * Real.cos η)
  have := abs_add_le Y (b * Real.sin η)
  constructor <;> linarith

omit [Libm] in
theorem tangent_abs (ha : |a| ≤ 2 ^ e) (hb : |b| ≤ 2 ^ e) (η : ℝ) :
    |((Ellipse.mk X Y a b 0).tangent η).1| ≤ 2 ^ e ∧ |((Ellipse.mk X Y a b 0).tangent η).2| ≤ 2 ^ e := by
  unfold Ellipse.tangent
  simp only [Real.cos_zero, Real.sin_zero, mul_one, mul_zero, sub_zero, zero_add, abs_neg]
  constructor
  · rw [abs_mul]; exact (mul_le_of_le_one_right (abs_nonneg _) (Real.abs_sin_le_one η)).trans ha
  · rw [abs_mul]; exact (mul_le_of_le_one_right (abs_nonneg _) (Real.abs_cos_le_one η)).trans hb

/-- The tangent times its factor. -/
theorem near_arm (he : e ≤ 23) (d0 : 0 ≤ d) (d1 : d ≤ 2 ^ e / 4) {al t : F64} {α τ : ℝ} (hal : Near (1 / 2 ^ 42) al α) (hα : |α| ≤ 1 / 2)
    (ht : Near (d + 2 ^ e / 2 ^ 42) t τ) (hτ : |τ| ≤ 2 ^ e) : Near (d + 2 ^ e / 2 ^ 41) (al *. t) (α * τ) ∧ |α * τ| ≤ 2 ^ e / 2 := by
  have e2 := pow_two_more e
  have pe : (0 : ℝ) < 2 ^ e := by positivity
  have t1 : 1 / 2 ^ 42 * |τ| ≤ 1 / 2 ^ 42 * 2 ^ e := mul_le_mul_of_nonneg_left hτ (by positivity)
  have t2 : |α| * (d + 2 ^ e / 2 ^ 42) ≤ 1 / 2 * (d + 2 ^ e / 2 ^ 42) := mul_le_mul_of_nonneg_right hα (by positivity)
  have t4 : |α * τ| ≤ 2 ^ e / 2 := by
    rw [abs_mul]
    nlinarith [abs_nonneg α, abs_nonneg τ]
  refine ⟨(near_mul hal ht (E := e + 2) (by omega) ?_).mono ?_, t4⟩
  · rw [e2]; norm_num at *; linarith
  · rw [e2]; norm_num at *; linarith

/-- A stored coordinate of a point plus or minus an arm. -/
theorem near_control (he : e ≤ 23) (d0 : 0 ≤ d) (d1 : d ≤ 2 ^ e / 4) {x y : F64} {r s : ℝ} (hx : Near (2 * d + 2 ^ e / 2 ^ 41) x r) (hr : |r| ≤ 2 * 2 ^ e)
    (hy : Near (d + 2 ^ e / 2 ^ 41) y s ∧ |s| ≤ 2 ^ e / 2) :
    |(toFix (x +. y) / 64 : ℝ) - (r + s)| < 1 / 64 + (3 * d + 2 ^ e / 2 ^ 39) ∧
    |(toFix (x -. y) / 64 : ℝ) - (r - s)| < 1 / 64 + (3 * d + 2 ^ e / 2 ^ 39) ∧ |(toFix x / 64 : ℝ) - r| < 1 / 64 + (3 * d + 2 ^ e / 2 ^ 39) := by
  have e2 := pow_two_more e
  have pe : (0 : ℝ) < 2 ^ e := by positivity
  have pe23 : (2 : ℝ) ^ e ≤ 2 ^ 23 := pow_le_pow_right₀ (by norm_num) he
  have := abs_add_le r s
  have := abs_sub r s
  obtain ⟨hy, hs⟩ := hy
  refine ⟨near_fix ((near_add hx hy (E := e + 2) (by omega) ?_).mono ?_) ?_, near_fix ((near_sub hx hy (E := e + 2) (by omega) ?_).mono ?_) ?_,
    near_fix (hx.mono ?_) ?_⟩ <;> first | (rw [e2]; norm_num at *; linarith) | (norm_num at *; linarith)

/-- A cubic as an operation. -/
def cubicOp (c : Cubic) : GOp ℝ := .cubicTo c.p1 c.p2 c.p3

/-- What the loop stores, for an ellipse without rotation, beginning on the right. -/
theorem loop_near (h : Rough e d cx cy rx ry X Y a b) (hL : Accurate) {p : ArcArgs F64} (hp1 : p.rx = rx) (hp2 : p.ry = ry)
    {stop : ℝ × ℝ} (hpx : Near (2 * d + 2 ^ e / 2 ^ 41) p.x stop.1) (hpy : Near (2 * d + 2 ^ e / 2 ^ 41) p.y stop.2)
    (hst : |stop.1| ≤ 2 * 2 ^ e ∧ |stop.2| ≤ 2 * 2 ^ e) {s0 c1 z dEta al : F64} (hs : Is s0 0) (hc : Is c1 1) (hz : Is z 0)
    (hd : Near (1 / 2 ^ 52) dEta stepR) (hal : Near (1 / 2 ^ 42) al (alphaOf stepR)) (n : Nat) : ∀ (i : Nat), i + n ≤ 17 →
    ∀ (lx ly ldx ldy : F64) (p0 : ℝ × ℝ), Near (2 * d + 2 ^ e / 2 ^ 41) lx p0.1 → Near (2 * d + 2 ^ e / 2 ^ 41) ly p0.2 →
    |p0.1| ≤ 2 * 2 ^ e ∧ |p0.2| ≤ 2 * 2 ^ e →
    Near (d + 2 ^ e / 2 ^ 42) ldx ((Ellipse.mk X Y a b 0).tangent (0 + stepR * i)).1 →
    Near (d + 2 ^ e / 2 ^ 42) ldy ((Ellipse.mk X Y a b 0).tangent (0 + stepR * i)).2 →
    List.Forall₂ (OpWithin (1 / 64 + (3 * d + 2 ^ e / 2 ^ 39))) (ellLoop p cx cy s0 c1 z dEta al n (i + 1) lx ly ldx ldy).1
      ((cubics ⟨X, Y, a, b, 0⟩ 0 stepR (alphaOf stepR) stop n i p0).map cubicOp) := by
  induction n with
  | zero => intros; exact .nil
  | succ n ih =>
    intro i hi lx ly ldx ldy p0 hlx hly hp0 hldx hldy
    obtain ⟨ang, anb⟩ := near_angle hz hd (i := i + 1) (by omega)
    obtain ⟨p3, hp3⟩ : ∃ p3 : ℝ × ℝ, p3 = if n = 0 then stop else (Ellipse.mk X Y a b 0).point (0 + stepR * (i + 1 : ℕ)) := ⟨_, rfl⟩
    obtain ⟨P, hP⟩ : ∃ P : F64 × F64, P = if n = 0 then (p.x, p.y) else
      ellipsePointAt p.rx p.ry s0 c1 (z +. dEta *. GoFloat.ofInt ((i + 1 : ℕ) : ℤ)) cx cy := ⟨_, rfl⟩
    obtain ⟨q1, q2⟩ := near_point h hs hc hL ang anb
    have hbP : |p3.1| ≤ 2 * 2 ^ e ∧ |p3.2| ≤ 2 * 2 ^ e := by
      rw [hp3]
      split
      · exact hst
      · exact point_abs h.bX h.bY h.ba h.bb _
    have hP1 : Near (2 * d + 2 ^ e / 2 ^ 41) P.1 p3.1 ∧ Near (2 * d + 2 ^ e / 2 ^ 41) P.2 p3.2 := by
      rw [hP, hp3]
      split
      · exact ⟨hpx, hpy⟩
      · rw [hp1, hp2]; exact ⟨q1, q2⟩
    obtain ⟨T, hT⟩ : ∃ T : F64 × F64, T = ellipsePrime p.rx p.ry s0 c1 (z +. dEta *. GoFloat.ofInt ((i + 1 : ℕ) : ℤ)) cx cy := ⟨_, rfl⟩
    obtain ⟨t1, t2⟩ := near_tangent h hs hc hL ang anb
    rw [hp1, hp2] at hT
    rw [← hT] at t1 t2
    have hrun : (ellLoop p cx cy s0 c1 z dEta al (n + 1) (i + 1) lx ly ldx ldy).1 =
        Op.cubicTo (toFixedP (lx +. al *. ldx) (ly +. al *. ldy)) (toFixedP (P.1 -. al *. T.1) (P.2 -. al *. T.2)) (toFixedP P.1 P.2) ::
          (ellLoop p cx cy s0 c1 z dEta al n (i + 1 + 1) P.1 P.2 T.1 T.2).1 := by
      rw [hT, hP, ellLoop]
      subst hp1 hp2
      rfl
    rw [hrun, cubics]
    simp only [← hp3, List.map_cons]
    have b1 := tangent_abs (X := X) (Y := Y) h.ba h.bb (0 + stepR * i)
    have b2 := tangent_abs (X := X) (Y := Y) h.ba h.bb (0 + stepR * (i + 1 : ℕ))
    have k1 := near_control h.he h.d0 h.d1 hlx hp0.1 (near_arm h.he h.d0 h.d1 hal alpha_abs hldx b1.1)
    have k2 := near_control h.he h.d0 h.d1 hly hp0.2 (near_arm h.he h.d0 h.d1 hal alpha_abs hldy b1.2)
    have k3 := near_control h.he h.d0 h.d1 hP1.1 hbP.1 (near_arm h.he h.d0 h.d1 hal alpha_abs t1 b2.1)
    have k4 := near_control h.he h.d0 h.d1 hP1.2 hbP.2 (near_arm h.he h.d0 h.d1 hal alpha_abs t2 b2.2)
    refine .cons (.cubicTo ⟨k1.1, k2.1⟩ ⟨k3.2.1, k4.2.1⟩ ⟨k3.2.2, k4.2.2⟩) ?_
    exact ih (i + 1) (by omega) _ _ _ _ _ hP1.1 hP1.2 hbP t1 t2

end Loop

/-! ### The turn -/

omit [Libm] in
theorem roundRat_sign {z : Bool} {q : ℚ} (h : 0 < q) : (roundRat z q).sign = false ∧ roundRat z q ≠ .nan := by
  rw [roundRat, if_neg h.ne', if_neg (by linarith), decide_eq_false (by linarith), roundAbs, if_neg h.ne']
  dsimp only
  generalize (if roundNat (q / twoPow (lastPlace q)) = 2 ^ 53 then ((2 ^ 52 : ℕ), lastPlace q + 1) else
    (roundNat (q / twoPow (lastPlace q)), lastPlace q)) = me
  split <;> exact ⟨rfl, by simp⟩

omit [Libm] in
theorem sign_pos {x : F64} {q : ℚ} (h : Is x q) (hq : 0 < q) : x.sign = false := by
  obtain ⟨s, m, e, rfl, -, rfl⟩ := h
  cases s
  · rfl
  · simp only [if_true] at hq
    have : (0 : ℚ) ≤ m * 2 ^ e := by positivity
    linarith

omit [Libm] in
theorem sub_self_zero {x : F64} {p : ℚ} (h : Is x p) : sub x x = .fin false 0 (-1074) := by
  obtain ⟨s, m, e, rfl, -⟩ := h
  show add (.fin s m e) (.fin (!s) m e) = _
  simp only [add, val]
  have e1 : (if s = true then (-1 : ℚ) else 1) * m * twoPow e + (if (!s) = true then -1 else 1) * m * twoPow e = 0 := by cases s <;> simp
  rw [e1, roundRat_zero]
  cases s <;> simp [sign]

omit [Libm] in
theorem zero_sub_zero {e : Int} {z : F64} (h : Is z 0) : sub (.fin false 0 e) z = .fin false 0 (-1074) := by
  have hv := is_val (is_neg h)
  obtain ⟨s, m, e', rfl, -⟩ := h
  show add (.fin false 0 e) (.fin (!s) m e') = _
  change val (.fin (!s) m e') = _ at hv
  simp only [add, hv, val_zero]
  rw [neg_zero, add_zero, roundRat_zero]
  simp [sign]

omit [Libm] in
theorem is_zero_form {z : F64} (h : Is z 0) : ∃ s e, z = .fin s 0 e := by
  obtain ⟨s, m, e, rfl, -, hq⟩ := h
  refine ⟨s, e, ?_⟩
  have : (2 : ℚ) ^ e ≠ 0 := by positivity
  cases s <;> simp_all

/-- The right end of the ellipse is not to the left of the centre. -/
theorem right_sign {cx rx : F64} {p q : ℚ} (hc : Is cx p) (hr : Is rx q) (hq : 0 < q) (hb : |p + q| < 2 ^ (1024 : Int) - 2 ^ (970 : Int)) :
    ((cx +. rx) -. cx).sign = false ∧ ((cx +. rx) -. cx) ≠ .nan := by
  obtain ⟨v, v1, v2⟩ := add_nearest hc hr hb
  have hv : p ≤ v := by
    by_contra hlt
    have := v2 p (is_rep hc)
    rw [abs_of_neg (by linarith), abs_of_neg (by linarith)] at this
    linarith
  have h1 := is_val v1
  have h2 := is_val (is_neg hc)
  have h3 := is_val hc
  have hz : cx.isZero = true → v ≠ 0 := by
    intro h
    have hp0 : p = 0 := by
      have := is_val hc
      obtain ⟨s, m, e, rfl, -⟩ := hc
      have hm : m = 0 := by simpa [isZero] using h
      subst hm
      rw [← this, val_zero]
    subst hp0
    have := is_unique v1 (is_add' hc hr (zero_add _) (is_rep hr))
    rw [this]
    exact hq.ne'
  show (sub _ _).sign = false ∧ sub _ _ ≠ _
  generalize cx +. rx = P at *
  rcases hv.eq_or_lt with he | hlt
  · subst he
    obtain ⟨s, m, e, rfl, -⟩ := hc
    obtain ⟨t, n, f, rfl, -⟩ := v1
    show (add _ (.fin (!s) m e)).sign = _ ∧ add _ (.fin (!s) m e) ≠ _
    change val (.fin (!s) m e) = _ at h2
    simp only [add, h1, h2]
    rw [add_neg_cancel, roundRat_zero]
    refine ⟨?_, by simp⟩
    show (isZero (.fin t n f) && isZero (.fin (!s) m e) && _ && _) = false
    by_cases hm : m = 0
    · subst hm
      rw [val_zero] at h3
      exact absurd h3.symm (hz rfl)
    · have : isZero (.fin (!s) m e) = false := by simpa [isZero] using hm
      rw [this]
      simp
  · obtain ⟨s, m, e, rfl, -⟩ := hc
    obtain ⟨t, n, f, rfl, -⟩ := v1
    show (add _ (.fin (!s) m e)).sign = _ ∧ add _ (.fin (!s) m e) ≠ _
    change val (.fin (!s) m e) = _ at h2
    simp only [add, h1, h2]
    exact roundRat_sign (by linarith)

/-- The turn that the code makes of an ellipse: from zero, once around. -/
theorem ellipse_turn (hL : Accurate) {cx cy rx ry : F64} {p p' q q' : ℚ} (hc : Is cx p) (hc' : Is cy p') (hr : Is rx q) (hr' : Is ry q')
    (hq : 0 < q) (hq' : 0 < q') (hb : |p + q| < 2 ^ (1024 : Int) - 2 ^ (970 : Int)) :
    arcDeltaEta (⟨rx, ry, num 0, num 1, num 0, cx +. rx, cy⟩ : ArcArgs F64) cx cy (cx +. rx) cy =
      (.fin false 0 (-1074), GoFloat.neg (GoFloat.piMul 2)) := by
  obtain ⟨s1, s2⟩ := right_sign hc hr hq hb
  have hrot : Is ((num 0 : F64) *. GoFloat.piMul 1 /. num 180) 0 := by
    show Is (div (mul (roundRat false 0) (Libm.piMul 1)) (roundRat false 180)) 0
    rw [hL.piMul]
    have e : div (mul (roundRat false 0) (roundRat false (1 * goPi))) (roundRat false 180) = .fin false 0 (-1074) := by decide +kernel
    rw [e]
    exact ⟨_, _, _, rfl, by norm_num, by simp⟩
  have a0 : GoFloat.atan2 (cy -. cy) (cx +. rx -. cx) = (.fin false 0 (-1074) : F64) := by
    show Libm.atan2 (sub cy cy) _ = _
    rw [sub_self_zero hc', hL.atan2_zero _ _ s2 s1]
  have a1 : (.fin false 0 (-1074) : F64) -. ((num 0 : F64) *. GoFloat.piMul 1 /. num 180) = .fin false 0 (-1074) := zero_sub_zero hrot
  have a2 : GoFloat.sin (.fin false 0 (-1074) : F64) = .fin false 0 (-1074) := hL.sin_zero _ _
  have a3 : (.fin false 0 (-1074) : F64) /. ry = .fin false 0 (-1074) := by
    have sg := sign_pos hr' hq'
    have hv := is_val hr'
    obtain ⟨s, m, e, rfl, -⟩ := hr'
    have hm : m ≠ 0 := by rintro rfl; rw [val_zero] at hv; linarith
    cases sg
    show div _ _ = _
    simp only [div, val_zero]
    rw [if_neg (by simpa [isZero] using hm), zero_div, roundRat_zero]
    rfl
  have a4 : (GoFloat.cos (.fin false 0 (-1074) : F64) /. rx).sign = false ∧ GoFloat.cos (.fin false 0 (-1074) : F64) /. rx ≠ .nan := by
    have h1 := hL.cos_zero false (-1074)
    show (div (Libm.cos _) rx).sign = _ ∧ div (Libm.cos _) rx ≠ _
    generalize Libm.cos (.fin false 0 (-1074)) = C at *
    have v1 := is_val h1
    have v2 := is_val hr
    obtain ⟨s, m, e, rfl, -⟩ := hr
    obtain ⟨t, n, f, rfl, -⟩ := h1
    have hm : m ≠ 0 := by rintro rfl; rw [val_zero] at v2; linarith
    simp only [div, v1, v2]
    rw [if_neg (by simpa [isZero] using hm)]
    exact roundRat_sign (by positivity)
  have a5 : GoFloat.atan2 (.fin false 0 (-1074)) (GoFloat.cos (.fin false 0 (-1074) : F64) /. rx) = (.fin false 0 (-1074) : F64) :=
    hL.atan2_zero _ _ a4.2 a4.1
  have p1 : (GoFloat.piMul 1 : F64) = roundRat false (1 * goPi) := hL.piMul 1
  have p2 : (GoFloat.piMul 2 : F64) = roundRat false (2 * goPi) := hL.piMul 2
  unfold arcDeltaEta
  simp only [a0, a1, a2, a3, a5]
  rw [p1, p2]
  have key : ∀ [Libm],
      (let deltaTheta := (.fin false 0 (-1074) : F64) -. .fin false 0 (-1074)
      let arcBig := GoFloat.lt (roundRat false (1 * goPi)) (GoFloat.abs deltaTheta)
      let largeArc := !GoFloat.eq (num 1 : F64) (num 0)
      let sweep := !GoFloat.eq (num 0 : F64) (num 0)
      let deltaEta := (.fin false 0 (-1074) : F64) -. .fin false 0 (-1074)
      let deltaEta :=
        if (arcBig && !largeArc) || (!arcBig && largeArc) then
          if GoFloat.lt deltaEta (num 0) then deltaEta +. roundRat false (2 * goPi) else deltaEta -. roundRat false (2 * goPi)
        else deltaEta
      if GoFloat.lt deltaEta (num 0) && sweep then deltaEta +. roundRat false (2 * goPi)
        else if GoFloat.le (num 0) deltaEta && !sweep then deltaEta -. roundRat false (2 * goPi)
        else deltaEta) = GoFloat.neg (roundRat false (2 * goPi)) := by
    intro _
    exact (by decide +kernel : (let deltaTheta := sub (.fin false 0 (-1074)) (.fin false 0 (-1074))
      let arcBig := lt (roundRat false (1 * goPi)) (abs deltaTheta)
      let largeArc := !eq (roundRat false 1) (roundRat false 0)
      let sweep := !eq (roundRat false 0) (roundRat false 0)
      let deltaEta := sub (.fin false 0 (-1074)) (.fin false 0 (-1074))
      let deltaEta :=
        if (arcBig && !largeArc) || (!arcBig && largeArc) then
          if lt deltaEta (roundRat false 0) then add deltaEta (roundRat false (2 * goPi)) else sub deltaEta (roundRat false (2 * goPi))
        else deltaEta
      if lt deltaEta (roundRat false 0) && sweep then add deltaEta (roundRat false (2 * goPi))
        else if le (roundRat false 0) deltaEta && !sweep then sub deltaEta (roundRat false (2 * goPi))
        else deltaEta) = neg (roundRat false (2 * goPi)))
  exact Prod.ext rfl key

theorem turn_segs (hL : Accurate) : arcSegs (GoFloat.neg (GoFloat.piMul 2) : F64) = 17 := by
  unfold arcSegs
  have p8 : (GoFloat.piMul (1 / 8) : F64) = roundRat false (1 / 8 * goPi) := hL.piMul (1 / 8)
  have p2 : (GoFloat.piMul 2 : F64) = roundRat false (2 * goPi) := hL.piMul 2
  rw [p8, p2]
  exact (by decide +kernel : wrap64 (toSigned 63 (div (abs (neg (roundRat false (2 * goPi)))) (roundRat false (1 / 8 * goPi))) + 1) = 17)

end GoSvg.F64
