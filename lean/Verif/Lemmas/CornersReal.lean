import Verif.Lemmas.Corners
import Verif.Props.Shapes

/-! The rounded corners of rectangles in exact arithmetic. -/

namespace GoSvg

open Spec

theorem toI32_close {v : ℝ} (h : |v| < 2 ^ 31) : |(GoFloat.toI32 v : ℝ) - v| ≤ 1 := by
  obtain ⟨h1, h2⟩ := abs_lt.1 h
  have ht := toI32_isTrunc v (by linarith) h2
  rcases le_or_gt 0 v with hv | hv
  · have := ht.1 hv
    rw [abs_le]; constructor <;> linarith [this.1, this.2]
  · have := ht.2 hv
    rw [abs_le]; constructor <;> linarith [this.1, this.2]

theorem toFix_close {v : ℝ} (h : |v| < 2 ^ 25) : |(toFix v : ℝ) - 64 * v| ≤ 1 := by
  rw [toFix_real, mul_comm 64 v]
  apply toI32_close
  rw [abs_mul, abs_of_pos (by norm_num : (0 : ℝ) < 64)]
  linarith

theorem ringTan_real {R : ℤ} (h0 : 0 ≤ R) (h1 : R ≤ 2 ^ 26) (φ : ℝ) : NearTangent R φ (ringTan (GoFloat.ofInt R) φ) := by
  have r0 : (0 : ℝ) ≤ R := by exact_mod_cast h0
  have r1 : (R : ℝ) ≤ 2 ^ 26 := by exact_mod_cast h1
  have k : ∀ c : ℝ, |c| ≤ 1 → |(R : ℝ) * c| ≤ 2 ^ 26 := by
    intro c hc
    rw [abs_mul, abs_of_nonneg r0]
    nlinarith [abs_nonneg c]
  have ks := k _ (Real.abs_sin_le_one φ)
  have kc := k _ (Real.abs_cos_le_one φ)
  have ts := toI32_close (v := R * Real.sin φ) (by norm_num at ks ⊢; linarith)
  have tc := toI32_close (v := R * Real.cos φ) (by norm_num at kc ⊢; linarith)
  have hw : wrap32 (-(GoFloat.toI32 ((R : ℝ) * Real.sin φ))) = -(GoFloat.toI32 ((R : ℝ) * Real.sin φ)) := by
    have : |(GoFloat.toI32 ((R : ℝ) * Real.sin φ) : ℝ)| ≤ 2 ^ 27 := by
      have := abs_sub_abs_le_abs_sub (GoFloat.toI32 ((R : ℝ) * Real.sin φ) : ℝ) (R * Real.sin φ)
      have e : (2 : ℝ) ^ 27 = 2 ^ 26 + 2 ^ 26 := by norm_num
      have e1 : (1 : ℝ) ≤ 2 ^ 26 := by norm_num
      linarith
    have : |GoFloat.toI32 ((R : ℝ) * Real.sin φ)| ≤ 2 ^ 27 := by exact_mod_cast this
    have := abs_le.1 this
    apply wrap32_id <;> omega
  constructor
  · show |((wrap32 (-(GoFloat.toI32 ((R : ℝ) * Real.sin φ))) : ℤ) : ℝ) + _| ≤ _
    rw [hw]
    push_cast
    rw [← abs_neg] at ts
    refine (le_of_eq ?_).trans (ts.trans (by norm_num))
    congr 1
    ring
  · exact tc.trans (by norm_num)

/-- The factor of the handles is between 6.5 and 6.95 sixty-fourths. -/
theorem corner_alpha : 6.5 < alphaOf (Real.pi / 10) * 64 ∧ alphaOf (Real.pi / 10) * 64 < 6.95 := by
  have p1 := Real.pi_gt_d4
  have p2 := Real.pi_lt_d4
  have s1 := Real.sin_gt_sub_cube (x := Real.pi / 10) (by positivity)
  have s2 := Real.sin_lt (x := Real.pi / 10) (by positivity)
  have hx3 : (Real.pi / 10) ^ 3 ≤ 0.31416 ^ 3 := by apply pow_le_pow_left₀ <;> norm_num at * <;> linarith
  have hs1 : 0.308 < Real.sin (Real.pi / 10) := by norm_num at *; linarith
  have hs2 : Real.sin (Real.pi / 10) < 0.31417 := by norm_num at *; linarith
  obtain ⟨a1, a2, a3, a4⟩ := twentieth
  have e : Real.pi / 10 / 2 = Real.pi / 20 := by ring
  have c0 : 0 < Real.cos (Real.pi / 20) := by norm_num at a3; linarith
  have t0 : 0 < Real.tan (Real.pi / 20) := by rw [Real.tan_eq_sin_div_cos]; apply div_pos <;> norm_num at * <;> linarith
  have t1 : Real.tan (Real.pi / 20) < 0.16 := by
    rw [Real.tan_eq_sin_div_cos, div_lt_iff₀ c0]
    norm_num at *
    linarith
  unfold alphaOf
  rw [e]
  generalize Real.sin (Real.pi / 10) = s at *
  generalize Real.tan (Real.pi / 20) = t at *
  have q1 : 2 ≤ Real.sqrt (4 + 3 * t * t) := Real.le_sqrt_of_sq_le (by nlinarith)
  have q2 : Real.sqrt (4 + 3 * t * t) ≤ 2.03 := by
    rw [Real.sqrt_le_left (by norm_num)]
    norm_num at *
    nlinarith
  generalize Real.sqrt (4 + 3 * t * t) = q at *
  have m1 : 0.308 * 1 < s * (q - 1) := by norm_num at *; nlinarith
  have m2 : s * (q - 1) < 0.31417 * 1.031 := by norm_num at *; nlinarith
  constructor <;> norm_num at * <;> linarith

theorem trunc_six {v : ℝ} (h1 : 6 ≤ v) (h2 : v < 7) : GoFloat.toI32 v = 6 := by
  apply isTrunc_unique (toI32_isTrunc v (by linarith) (by linarith))
  constructor
  · intro _
    norm_num
    constructor <;> linarith
  · intro h
    linarith

variable {m : Matrix2D ℝ} {a : Pt} {R : ℤ} {X Y ρ : ℝ}

/-- A corner in exact arithmetic. -/
theorem gap_real (h : NearCircle m a R X Y ρ) {fuel : Nat} {t l : Pt} {η : ℝ} (ht : |t.x| ≤ 2 ^ 26 ∧ |t.y| ≤ 2 ^ 26)
    (hl : |l.x| ≤ 2 ^ 26 ∧ |l.y| ≤ 2 ^ 26) (h1 : Complex.arg ⟨t.x, t.y⟩ = η) (h2 : raise fuel (Complex.arg ⟨l.x, l.y⟩) η = some (η + Real.pi / 2))
    (hR : t.x ^ 2 + t.y ^ 2 = R ^ 2) (hx : (l.x : ℝ) = R * Real.cos (η + Real.pi / 2)) (hy : (l.y : ℝ) = R * Real.sin (η + Real.pi / 2)) :
    ∃ g, roundGap fuel m a t l = some g ∧ List.Forall₂ (OpWithin (5 / 64)) g (cornerOps X Y ρ η) := by
  have ax := abs_le.1 h.ax
  have ay := abs_le.1 h.ay
  have at' : a.add t = ⟨a.x + t.x, a.y + t.y⟩ := by
    have := abs_le.1 ht.1
    have := abs_le.1 ht.2
    unfold Pt.add
    rw [wrap32_id (by omega) (by omega), wrap32_id (by omega) (by omega)]
  have al' : a.add l = ⟨a.x + l.x, a.y + l.y⟩ := by
    have := abs_le.1 hl.1
    have := abs_le.1 hl.2
    unfold Pt.add
    rw [wrap32_id (by omega) (by omega), wrap32_id (by omega) (by omega)]
  have w : ∀ {u v : ℤ}, |v| ≤ 2 ^ 26 → wrap32 (u + v - u) = v := by
    intro u v hv
    have := abs_le.1 hv
    rw [add_sub_cancel_left, wrap32_id (by omega) (by omega)]
  have hd : η + Real.pi / 2 - η = Real.pi / 2 := by ring
  have h5 : Real.pi / 2 / 5 = Real.pi / 10 := by ring
  have hpi := Real.pi_pos
  apply gap_within h (θ₁ := η) (θ₂ := η + Real.pi / 2)
  · rw [at', w ht.1, w ht.2]
    exact h1
  · rw [al', w hl.1, w hl.2]
    exact h2
  · simp only [real_sub, hd, real_abs, real_div, real_piMul]
    rw [abs_of_pos (by positivity)]
    have : Real.pi / 2 / (((1 / 8 : ℚ) : ℝ) * Real.pi) = ((4 : ℤ) : ℝ) := by
      push_cast
      field_simp
      norm_num
    rw [this]
    show (if _ then _ else _ : ℤ) = 4
    rw [truncR_int]
    rfl
  · simp only [real_sub, hd, real_div, real_ofInt, real_sin, real_sqrt, real_tan, real_mul, real_add, real_num]
    obtain ⟨c1, c2⟩ := corner_alpha
    unfold alphaOf at c1 c2
    apply trunc_six
    · push_cast
      rw [h5]
      norm_num at *
      linarith
    · push_cast
      rw [h5]
      norm_num at *
      linarith
  · rw [at']
    have e : Pt.sub ⟨a.x + t.x, a.y + t.y⟩ a = t := by
      unfold Pt.sub
      simp only [w ht.1, w ht.2]
    rw [e]
    unfold length
    simp only [real_ofInt, real_mul, real_add, real_sqrt]
    have e2 : (t.x : ℝ) * t.x + t.y * t.y = R * R := by
      have : (t.x : ℝ) ^ 2 + (t.y : ℝ) ^ 2 = (R : ℝ) ^ 2 := by exact_mod_cast hR
      linarith
    have r0 : (0 : ℝ) ≤ R := by exact_mod_cast h.R0
    rw [e2, Real.sqrt_mul_self r0]
    have := h.R0
    have := h.R1
    exact toI32_int R (by omega) (by omega)
  · exact ringTan_real h.R0 h.R1 η
  · intro i _ _
    have := ringTan_real h.R0 h.R1 (η + Real.pi / 10 * i)
    simp only [real_sub, hd, real_div, real_ofInt, real_add, real_mul]
    push_cast
    rw [h5]
    exact this
  · constructor
    · push_cast
      rw [hy]
      norm_num
    · rw [hx]
      norm_num

/-! ### The four corners -/

theorem arg_up {R : ℤ} (h : 0 < R) : Complex.arg ⟨((0 : ℤ) : ℝ), ((-R : ℤ) : ℝ)⟩ = -(Real.pi / 2) := by
  rw [Complex.arg_eq_neg_pi_div_two_iff.2]
  have : (0 : ℝ) < R := by exact_mod_cast h
  simpa using this

theorem arg_right {R : ℤ} (h : 0 < R) : Complex.arg ⟨((R : ℤ) : ℝ), ((0 : ℤ) : ℝ)⟩ = 0 := by
  rw [Complex.arg_eq_zero_iff]
  have : (0 : ℝ) < R := by exact_mod_cast h
  simpa using this.le

theorem arg_down {R : ℤ} (h : 0 < R) : Complex.arg ⟨((0 : ℤ) : ℝ), ((R : ℤ) : ℝ)⟩ = Real.pi / 2 := by
  rw [Complex.arg_eq_pi_div_two_iff]
  have : (0 : ℝ) < R := by exact_mod_cast h
  simpa using this

theorem arg_left {R : ℤ} (h : 0 < R) : Complex.arg ⟨((-R : ℤ) : ℝ), ((0 : ℤ) : ℝ)⟩ = Real.pi := by
  rw [Complex.arg_eq_pi_iff]
  have : (0 : ℝ) < R := by exact_mod_cast h
  simpa using this

theorem corners_real [GoEnv] (h : NearCircle m a R X Y ρ) (hR : 0 < R) {fuel : Nat} (hf : 1 ≤ fuel) :
    (∃ g, roundGap fuel m a ⟨0, -R⟩ ⟨R, 0⟩ = some g ∧ List.Forall₂ (OpWithin (5 / 64)) g (cornerOps X Y ρ (-(Real.pi / 2)))) ∧
    (∃ g, roundGap fuel m a ⟨R, 0⟩ ⟨0, R⟩ = some g ∧ List.Forall₂ (OpWithin (5 / 64)) g (cornerOps X Y ρ 0)) ∧
    (∃ g, roundGap fuel m a ⟨0, R⟩ ⟨-R, 0⟩ = some g ∧ List.Forall₂ (OpWithin (5 / 64)) g (cornerOps X Y ρ (Real.pi / 2))) ∧
    (∃ g, roundGap fuel m a ⟨-R, 0⟩ ⟨0, -R⟩ = some g ∧ List.Forall₂ (OpWithin (5 / 64)) g (cornerOps X Y ρ Real.pi)) := by
  have hpi := Real.pi_pos
  have b0 : |(0 : ℤ)| ≤ 2 ^ 26 := by norm_num
  have b1 : |R| ≤ 2 ^ 26 := by rw [abs_of_pos hR]; exact h.R1
  have b2 : |-R| ≤ 2 ^ 26 := by rw [abs_neg]; exact b1
  have e1 : Real.pi / 2 + Real.pi / 2 = Real.pi := by ring
  have e2 : Real.sin (Real.pi + Real.pi / 2) = -1 := by rw [Real.sin_add]; simp
  have e3 : Real.cos (Real.pi + Real.pi / 2) = 0 := by rw [Real.cos_add]; simp
  refine ⟨gap_real h ⟨b0, b2⟩ ⟨b1, b0⟩ (arg_up hR) ?_ (by simp) (by simp) (by simp), gap_real h ⟨b1, b0⟩ ⟨b0, b1⟩ (arg_right hR) ?_ (by simp) (by simp) (by simp),
    gap_real h ⟨b0, b1⟩ ⟨b2, b0⟩ (arg_down hR) ?_ (by simp) (by simp [e1]) (by simp [e1]),
    gap_real h ⟨b2, b0⟩ ⟨b0, b2⟩ (arg_left hR) ?_ (by simp) (by simp [e3]) (by simp [e2])⟩
  · simp only [arg_right hR, raise_stop _ _ _ (by linarith : -(Real.pi / 2) ≤ 0)]
    norm_num
  · simp only [arg_down hR, raise_stop _ _ _ (by linarith : 0 ≤ Real.pi / 2)]
    norm_num
  · simp only [arg_left hR, raise_stop _ _ _ (by linarith : Real.pi / 2 ≤ Real.pi), e1]
  · obtain ⟨f, rfl⟩ : ∃ f, fuel = f + 1 := ⟨fuel - 1, by omega⟩
    simp only [arg_up hR, raise_step _ _ _ (by linarith : -(Real.pi / 2) < Real.pi), raise_stop _ _ _ (by linarith : Real.pi ≤ -(Real.pi / 2) + 2 * Real.pi)]
    congr 1
    ring

theorem toFix_neg {v : ℝ} (h : |v| < 2 ^ 25) : toFix (-v) = -toFix v := by
  obtain ⟨h1, h2⟩ := abs_lt.1 h
  rw [toFix_real, toFix_real, toI32_real _ (by linarith) (by linarith), toI32_real _ (by linarith) (by linarith)]
  unfold truncR
  rcases lt_trichotomy v 0 with hv | hv | hv
  · rw [if_pos (by linarith), if_neg (by linarith), neg_mul, Int.floor_neg]
  · simp [hv]
  · rw [if_neg (by linarith), if_pos (by linarith), neg_mul, Int.ceil_neg]

theorem toFix_zero : toFix (0 : ℝ) = 0 := by
  rw [toFix_real, zero_mul]
  exact_mod_cast toI32_int 0 (by norm_num) (by norm_num)

/-- The stored centre and radius of a corner. -/
theorem near_circle_real {x y r : ℝ} (hx : |x| ≤ 2 ^ 22) (hy : |y| ≤ 2 ^ 22) (h0 : 0 ≤ r) (hr : r ≤ 2 ^ 19) :
    NearCircle (Matrix2D.identity : Matrix2D ℝ) (toFixedP x y) (toFix r) x y r := by
  have k : ∀ {v : ℝ}, |v| ≤ 2 ^ 22 → |(toFix v : ℝ) - 64 * v| ≤ 5 / 4 ∧ |toFix v| ≤ 2 ^ 29 := by
    intro v hv
    have h1 := toFix_close (v := v) (hv.trans_lt (by norm_num))
    refine ⟨h1.trans (by norm_num), ?_⟩
    have h2 := abs_sub_abs_le_abs_sub (toFix v : ℝ) (64 * v)
    rw [abs_mul, abs_of_pos (by norm_num : (0 : ℝ) < 64)] at h2
    have : |(toFix v : ℝ)| ≤ 2 ^ 29 := by norm_num at hv ⊢; linarith
    exact_mod_cast this
  have hr' : |r| ≤ 2 ^ 19 := by rwa [abs_of_nonneg h0]
  have t := toFix_close (v := r) (hr'.trans_lt (by norm_num))
  have tt : IsTrunc (r * 64) (toFix r) := by rw [toFix_real]; exact toI32_isTrunc _ (by linarith) (by linarith)
  refine ⟨fun p h1 h2 => ?_, (k hx).2, (k hy).2, (k hx).1, (k hy).1, ?_, ?_, t.trans (by norm_num)⟩
  · have := abs_le.1 h1
    have := abs_le.1 h2
    exact C20_identity_fixed p (by constructor <;> omega) (by constructor <;> omega)
  · by_contra hn
    have h1 := (tt.1 (by positivity)).2
    have : (toFix r : ℝ) ≤ -1 := by exact_mod_cast (by omega : toFix r ≤ -1)
    linarith
  · have h1 := (tt.1 (by positivity)).1
    have : (toFix r : ℝ) ≤ 2 ^ 26 := by linarith
    exact_mod_cast this

theorem toFix_pos {r : ℝ} (h : 1 / 64 ≤ r) (hr : r ≤ 2 ^ 19) : 0 < toFix r := by
  have tt : IsTrunc (r * 64) (toFix r) := by rw [toFix_real]; exact toI32_isTrunc _ (by linarith) (by linarith)
  have h1 := (tt.1 (by linarith)).2
  have : (0 : ℝ) < toFix r := by linarith
  exact_mod_cast this

theorem fixed_within {x y : ℝ} (hx : |x| ≤ 2 ^ 22) (hy : |y| ≤ 2 ^ 22) : PtWithin (5 / 64) (toFixedP x y) (x, y) := by
  have h1 := toFix_close (hx.trans_lt (by norm_num))
  have h2 := toFix_close (hy.trans_lt (by norm_num))
  obtain ⟨a1, a2⟩ := abs_le.1 h1
  obtain ⟨b1, b2⟩ := abs_le.1 h2
  constructor
  · show |(toFix x / 64 : ℝ) - x| < _
    rw [abs_lt]; constructor <;> linarith
  · show |(toFix y / 64 : ℝ) - y| < _
    rw [abs_lt]; constructor <;> linarith

/-- The outline put together from its corners. -/
theorem rounded_rect (x y w h r : ℝ) : RoundedRect x y w h r
    ([.moveTo (x + r, y), .lineTo (x + w - r, y)] ++ cornerOps (x + w - r) (y + r) r (-(Real.pi / 2)) ++
      [.lineTo (x + w, y + h - r)] ++ cornerOps (x + w - r) (y + h - r) r 0 ++ [.lineTo (x + r, y + h)] ++
      cornerOps (x + r) (y + h - r) r (Real.pi / 2) ++ [.lineTo (x, y + r)] ++ cornerOps (x + r) (y + r) r Real.pi ++ [.close]) := by
  refine ⟨_, _, _, _, cornerCubics_round _ _ _ _, cornerCubics_round _ _ _ _, cornerCubics_round _ _ _ _, cornerCubics_round _ _ _ _, ?_⟩
  have e1 : Real.pi / 2 + Real.pi / 2 = Real.pi := by ring
  have e2 : Real.sin (Real.pi + Real.pi / 2) = -1 := by rw [Real.sin_add]; simp
  have e3 : Real.cos (Real.pi + Real.pi / 2) = 0 := by rw [Real.cos_add]; simp
  unfold cornerOps
  simp only [Ellipse.point, Real.cos_neg, Real.sin_neg, Real.cos_pi_div_two, Real.sin_pi_div_two, Real.cos_zero, Real.sin_zero, mul_zero, mul_one, add_zero,
    sub_zero, zero_add, neg_add_cancel, Real.cos_pi, Real.sin_pi, e1, e2, e3, mul_neg, List.cons_append, List.append_assoc, List.nil_append]
  ring_nf

end GoSvg
