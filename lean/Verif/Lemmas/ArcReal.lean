import Verif.Lemmas.EllipseError

/-! Estimates for circular arcs: what small errors do to directions, angles and the factor of the tangents. -/

namespace GoSvg

/-- A point within `g` of a point at the distance `ρ` is seen in nearly the same direction. -/
theorem direction_close {a b a' b' ρ g A : ℝ} (hρ : 0 ≤ ρ) (h : a ^ 2 + b ^ 2 = ρ ^ 2) (ha : |a' - a| ≤ g) (hb : |b' - b| ≤ g)
    (h1 : Real.sqrt (a' ^ 2 + b' ^ 2) * Real.cos A = a') (h2 : Real.sqrt (a' ^ 2 + b' ^ 2) * Real.sin A = b') :
    |ρ * Real.cos A - a| ≤ 5 / 2 * g ∧ |ρ * Real.sin A - b| ≤ 5 / 2 * g := by
  have g0 : 0 ≤ g := (abs_nonneg _).trans ha
  have hH0 := Real.sqrt_nonneg (a' ^ 2 + b' ^ 2)
  have hH2 := Real.sq_sqrt (by positivity : 0 ≤ a' ^ 2 + b' ^ 2)
  generalize Real.sqrt (a' ^ 2 + b' ^ 2) = H at *
  have sum_le : ∀ x y r : ℝ, 0 ≤ r → x ^ 2 + y ^ 2 = r ^ 2 → |x| + |y| ≤ 3 / 2 * r := by
    intro x y r hr h
    apply le_of_sq_le_sq' _ (by positivity)
    have := sq_abs x
    have := sq_abs y
    nlinarith [sq_nonneg (|x| - |y|), sq_nonneg r]
  have hd : |H - ρ| ≤ 3 / 2 * g := by
    rcases (add_nonneg hH0 hρ).eq_or_lt with h0 | hpos
    · have : H = 0 := by linarith
      have : ρ = 0 := by linarith
      subst_vars
      simp only [sub_self, abs_zero]
      positivity
    · have e1 : (H - ρ) * (H + ρ) = (a' - a) * (a' + a) + (b' - b) * (b' + b) := by linear_combination hH2 + h
      have e2 : |H - ρ| * (H + ρ) ≤ 3 / 2 * g * (H + ρ) := by
        rw [← abs_of_pos hpos, ← abs_mul, abs_of_pos hpos, e1]
        have s1 := sum_le a b ρ hρ h
        have s2 := sum_le a' b' H hH0 hH2.symm
        have t1 := abs_add_le a' a
        have t2 := abs_add_le b' b
        have u1 := mul_le_mul ha t1 (abs_nonneg _) g0
        have u2 := mul_le_mul hb t2 (abs_nonneg _) g0
        rw [← abs_mul] at u1 u2
        have := abs_add_le ((a' - a) * (a' + a)) ((b' - b) * (b' + b))
        nlinarith
      exact le_of_mul_le_mul_right e2 hpos
  have key : ∀ c x x', |c| ≤ 1 → H * c = x' → |x' - x| ≤ g → |ρ * c - x| ≤ 5 / 2 * g := by
    intro c x x' hc e hx
    have e1 : ρ * c - x = (x' - x) - (H - ρ) * c := by rw [← e]; ring
    rw [e1]
    have := abs_sub (x' - x) ((H - ρ) * c)
    rw [abs_mul] at this
    nlinarith [abs_nonneg (H - ρ), abs_nonneg c]
  exact ⟨key _ _ _ (Real.abs_cos_le_one A) h1 ha, key _ _ _ (Real.abs_sin_le_one A) h2 hb⟩
where
  le_of_sq_le_sq' {x y : ℝ} (h : x ^ 2 ≤ y ^ 2) (hy : 0 ≤ y) : x ≤ y := (abs_le.1 (abs_le_of_sq_le_sq h hy)).2

/-- Angles with nearly the same cosine and sine differ by nearly a number of turns. -/
theorem angle_close {a b t : ℝ} (h1 : |Real.cos a - Real.cos b| ≤ t) (h2 : |Real.sin a - Real.sin b| ≤ t) :
    ∃ n : ℤ, |a - (b + n * (2 * Real.pi))| ≤ 9 / 4 * t := by
  have hpi := Real.pi_pos
  have hpi4 := Real.pi_lt_d4
  have t0 : 0 ≤ t := (abs_nonneg _).trans h1
  obtain ⟨n, hn⟩ : ∃ n : ℤ, n = round ((a - b) / (2 * Real.pi)) := ⟨_, rfl⟩
  have hr := abs_sub_round ((a - b) / (2 * Real.pi))
  rw [← hn] at hr
  refine ⟨n, ?_⟩
  obtain ⟨x, hx⟩ : ∃ x, x = a - (b + n * (2 * Real.pi)) := ⟨_, rfl⟩
  rw [← hx]
  have hx1 : |x| ≤ Real.pi := by
    have e : x = ((a - b) / (2 * Real.pi) - n) * (2 * Real.pi) := by rw [hx]; field_simp; ring
    rw [e, abs_mul, abs_of_pos (by positivity : 0 < 2 * Real.pi)]
    nlinarith
  have ha : a = b + x + n * (2 * Real.pi) := by rw [hx]; ring
  rw [ha, Real.cos_add_int_mul_two_pi] at h1
  rw [ha, Real.sin_add_int_mul_two_pi] at h2
  have e : (2 * Real.sin (x / 2)) ^ 2 = (Real.cos (b + x) - Real.cos b) ^ 2 + (Real.sin (b + x) - Real.sin b) ^ 2 := by
    have e1 : Real.cos x = 1 - 2 * Real.sin (x / 2) ^ 2 := by
      have := Real.cos_two_mul (x / 2)
      rw [show 2 * (x / 2) = x by ring] at this
      have := Real.sin_sq_add_cos_sq (x / 2)
      linarith
    have q1 := Real.sin_sq_add_cos_sq b
    have q2 := Real.sin_sq_add_cos_sq x
    rw [Real.cos_add, Real.sin_add]
    linear_combination 2 * e1 + (2 * Real.cos x - 1 - Real.cos x ^ 2 - Real.sin x ^ 2) * q1 - q2
  have s1 : (Real.cos (b + x) - Real.cos b) ^ 2 ≤ t ^ 2 := by rw [← sq_abs]; gcongr
  have s2 : (Real.sin (b + x) - Real.sin b) ^ 2 ≤ t ^ 2 := by rw [← sq_abs]; gcongr
  have s3 : 2 / Real.pi * |x / 2| ≤ |Real.sin (x / 2)| := Real.mul_abs_le_abs_sin (by rw [abs_div, abs_two]; linarith)
  rw [abs_div, abs_two] at s3
  have s4 : |x| ≤ Real.pi * |Real.sin (x / 2)| := by
    have : |x| = Real.pi * (2 / Real.pi * (|x| / 2)) := by field_simp
    rw [this]
    exact mul_le_mul_of_nonneg_left s3 hpi.le
  have s5 : (2 * |Real.sin (x / 2)|) ^ 2 ≤ 2 * t ^ 2 := by
    rw [mul_pow, sq_abs, ← mul_pow, e]; linarith
  have s6 : 2 * |Real.sin (x / 2)| ≤ 1.4143 * t := (abs_le.1 (abs_le_of_sq_le_sq (by nlinarith [sq_nonneg t]) (by positivity))).2
  nlinarith [abs_nonneg (Real.sin (x / 2))]

/-- Square roots of numbers at most `c²` apart are at most `c` apart. -/
theorem sqrt_close {p r c : ℝ} (hp : 0 ≤ p) (hr : 0 ≤ r) (hc : 0 ≤ c) (h : |p - r| ≤ c ^ 2) : |Real.sqrt p - Real.sqrt r| ≤ c := by
  have a := Real.mul_self_sqrt hp
  have b := Real.mul_self_sqrt hr
  have a0 := Real.sqrt_nonneg p
  have b0 := Real.sqrt_nonneg r
  generalize Real.sqrt p = u at *
  generalize Real.sqrt r = v at *
  obtain ⟨h1, h2⟩ := abs_le.1 h
  rw [abs_le]
  constructor
  · by_contra hcon
    nlinarith
  · by_contra hcon
    nlinarith

/-- The square root of a number near a square. -/
theorem sqrt_close_sq {p h d : ℝ} (hp : 0 ≤ p) (hh : 0 < h) (hd : |p - h ^ 2| ≤ d * h) : |Real.sqrt p - h| ≤ d := by
  have a := Real.mul_self_sqrt hp
  have a0 := Real.sqrt_nonneg p
  generalize Real.sqrt p = u at *
  have e : p - h ^ 2 = (u - h) * (u + h) := by linear_combination -a
  rw [e, abs_mul, abs_of_pos (by linarith : 0 < u + h)] at hd
  nlinarith [abs_nonneg (u - h)]

/-- The factor of the tangents changes at most half as fast as the step. -/
theorem alphaOf_lip {a b : ℝ} (ha : |a| ≤ 0.394) (hb : |b| ≤ 0.394) : |alphaOf a - alphaOf b| ≤ 1 / 2 * |a - b| := by
  have ha' : |a / 2| ≤ 0.197 := by rw [abs_div, abs_two]; norm_num at ha ⊢; linarith
  have hb' : |b / 2| ≤ 0.197 := by rw [abs_div, abs_two]; norm_num at hb ⊢; linarith
  have ta := F64.tan_abs ha'
  have tb := F64.tan_abs hb'
  have td := F64.abs_tan_sub_le (a := a / 2) (b := b / 2) (by norm_num at ha' ⊢; linarith) (by norm_num at hb' ⊢; linarith)
  have e0 : a / 2 - b / 2 = (a - b) / 2 := by ring
  rw [e0, abs_div, abs_two] at td
  have sd := F64.abs_sin_sub_le a b
  obtain ⟨ra1, ra2⟩ := F64.sqrt_bounds ta
  obtain ⟨rb1, rb2⟩ := F64.sqrt_bounds tb
  have qa := Real.mul_self_sqrt (by nlinarith [mul_self_nonneg (Real.tan (a / 2))] : 0 ≤ 4 + 3 * Real.tan (a / 2) * Real.tan (a / 2))
  have qb := Real.mul_self_sqrt (by nlinarith [mul_self_nonneg (Real.tan (b / 2))] : 0 ≤ 4 + 3 * Real.tan (b / 2) * Real.tan (b / 2))
  have sb : |Real.sin b| ≤ 0.394 := (Real.abs_sin_le_abs).trans hb
  unfold alphaOf
  generalize Real.sqrt (4 + 3 * Real.tan (a / 2) * Real.tan (a / 2)) = u at *
  generalize Real.sqrt (4 + 3 * Real.tan (b / 2) * Real.tan (b / 2)) = v at *
  generalize Real.tan (a / 2) = s at *
  generalize Real.tan (b / 2) = t at *
  generalize Real.sin a = x at *
  generalize Real.sin b = y at *
  generalize hD : |a - b| = D at *
  have D0 : 0 ≤ D := by rw [← hD]; exact abs_nonneg _
  have hst : |s + t| ≤ 1 / 2 := (abs_add_le _ _).trans (by linarith)
  have huv : |u - v| ≤ 3 / 8 * D := by
    have e1 : (u - v) * (u + v) = 3 * (s - t) * (s + t) := by linear_combination qa - qb
    have e2 : |u - v| * (u + v) ≤ 3 * D * (1 / 2) := by
      rw [← abs_of_pos (by linarith : 0 < u + v), ← abs_mul, e1, abs_mul, abs_mul, abs_of_pos (by norm_num : (0 : ℝ) < 3)]
      have : |s - t| ≤ D := by linarith
      have := mul_le_mul this hst (abs_nonneg _) D0
      linarith
    nlinarith [abs_nonneg (u - v)]
  have e : x * (u - 1) / 3 - y * (v - 1) / 3 = ((x - y) * (u - 1) + y * (u - v)) / 3 := by ring
  rw [e, abs_div, abs_of_pos (by norm_num : (0 : ℝ) < 3), div_le_iff₀ (by norm_num)]
  have k1 : |(x - y) * (u - 1)| ≤ D * (11 / 10) := by
    rw [abs_mul]
    refine mul_le_mul sd ?_ (abs_nonneg _) D0
    rw [abs_of_nonneg (by linarith)]
    norm_num at ra2 ⊢
    linarith
  have k2 : |y * (u - v)| ≤ 394 / 1000 * (3 / 8 * D) := by
    rw [abs_mul]
    exact mul_le_mul (by norm_num at sb ⊢; exact sb) huv (abs_nonneg _) (by norm_num)
  have := abs_add_le ((x - y) * (u - 1)) (y * (u - v))
  linarith

theorem alphaOf_abs {a : ℝ} (ha : |a| ≤ 0.394) : |alphaOf a| ≤ 1 / 5 := by
  have := alphaOf_lip ha (b := 0) (by norm_num)
  have e : alphaOf 0 = 0 := by simp [alphaOf]
  rw [e, sub_zero, sub_zero] at this
  norm_num at ha ⊢
  linarith

end GoSvg
