import Verif.Lemmas.ArcDraw64

/-! The centre of a circular arc in binary64. -/

namespace GoSvg.F64

open Spec

variable [Libm]

omit [Libm] in
theorem sqrt_round [Libm] {x : F64} {p : ℚ} (hx : Is x p) (hp : 0 ≤ p) {E : Nat} (hE : E ≤ 52) (hb : Real.sqrt p ≤ 2 ^ E / 2) :
    Near (2 ^ E / 2 ^ 53) (GoFloat.sqrt x) (Real.sqrt p) := by
  rcases hp.eq_or_lt with h0 | h0
  · subst h0
    obtain ⟨s, e, rfl⟩ := is_zero_form hx
    refine ⟨0, ⟨s, 0, -1074, by show sqrt _ = _; simp [sqrt], by decide, by simp⟩, ?_⟩
    simp only [Rat.cast_zero, Real.sqrt_zero, sub_zero, abs_zero]
    positivity
  · obtain ⟨q, q0, q1, q2⟩ := sqrt_nearest hx h0
    have k3 := div_le_div_of_nonneg_right hb (by positivity : (0 : ℝ) ≤ 2 ^ 60)
    have e1 : (2 : ℝ) ^ E / 2 / 2 ^ 60 = 2 ^ E / 2 ^ 61 := by ring
    have k2 : |(q : ℝ) - Real.sqrt p| ≤ 2 ^ E / 2 ^ 61 := by linarith
    have e3 : (2 : ℝ) ^ E / 2 ^ 61 ≤ 2 ^ E / 2 := div_le_div_of_nonneg_left (by positivity) (by norm_num) (by norm_num)
    have k5 : |Real.sqrt p| + 2 ^ E / 2 ^ 61 ≤ 2 ^ E := by rw [abs_of_nonneg (Real.sqrt_nonneg _)]; linarith
    refine (near_round (q2 (pow_bound hE (abs_le_of_near k2 k5))) k2 hE k5).mono ?_
    have : (2 : ℝ) ^ E / 2 ^ 61 ≤ 2 ^ E / 2 ^ 54 := div_le_div_of_nonneg_left (by positivity) (by norm_num) (by norm_num)
    have e2 : (2 : ℝ) ^ E / 2 ^ 53 = 2 ^ E / 2 ^ 54 + 2 ^ E / 2 ^ 54 := by ring
    linarith

theorem near_square {e : Nat} (he : e ≤ 22) {D c m a : ℝ} {x : F64} (hx : Near D x a) (ha : |a| ≤ m) (hD : D ≤ c * m)
    (ha2 : |a| ≤ 2 ^ e / 2) (hD2 : D ≤ 2 ^ e / 2) (hm : 2 ^ e ≤ 2 ^ 7 * m) :
    Near ((2 * c + c ^ 2 + 1 / 2 ^ 40) * m ^ 2) (x *. x) (a * a) := by
  have D0 : 0 ≤ D := by obtain ⟨p, -, h2⟩ := hx; exact (abs_nonneg _).trans h2
  have a0 := abs_nonneg a
  have m0 : 0 ≤ m := a0.trans ha
  have P0 : (0 : ℝ) < 2 ^ e := by positivity
  have e2 : (2 : ℝ) ^ (2 * e) = (2 ^ e) ^ 2 := by rw [mul_comm, pow_mul]
  refine (near_mul hx hx (E := 2 * e) (by omega) ?_).mono ?_
  · rw [abs_mul, e2]
    generalize (2 : ℝ) ^ e = P at *
    nlinarith
  · rw [e2]
    have h1 : ((2 : ℝ) ^ e) ^ 2 ≤ (2 ^ 7 * m) ^ 2 := by gcongr
    have h2 : D * |a| ≤ c * m * m := mul_le_mul hD ha a0 (D0.trans hD)
    have h3 : D * D ≤ c * m * (c * m) := mul_le_mul hD hD D0 (D0.trans hD)
    generalize ((2 : ℝ) ^ e) ^ 2 = P at *
    have e3 : (2 * c + c ^ 2 + 1 / 2 ^ 40) * m ^ 2 = c * m * m + c * m * m + c * m * (c * m) + (2 ^ 7 * m) ^ 2 / 2 ^ 54 := by ring
    rw [e3]
    have h4 : P / 2 ^ 54 ≤ (2 ^ 7 * m) ^ 2 / 2 ^ 54 := div_le_div_of_nonneg_right h1 (by positivity)
    linarith [mul_comm |a| D]

section Centre
variable {e : Nat} {r mx my : F64} {R u v h ρ t : ℝ}

/-- What is known of the numbers the centre is computed from. -/
structure Chord (e : Nat) (r mx my : F64) (R u v h ρ t : ℝ) : Prop where
  e1 : 7 ≤ e
  e2 : e ≤ 22
  R0 : 0 < R
  R1 : R ≤ 2 ^ e / 2
  h0 : 0 < h
  long : 2 ^ e ≤ 2 ^ 7 * h
  half : u ^ 2 + v ^ 2 = h ^ 2
  u1 : |u| ≤ 2 ^ e / 2
  v1 : |v| ≤ 2 ^ e / 2
  t0 : 0 ≤ t
  ρ1 : ρ = max R h
  side : h ^ 2 * (1 + t ^ 2) = ρ ^ 2
  r : Near (2 ^ e / 2 ^ 48) r R
  mx : Near (2 ^ e / 2 ^ 47) mx u
  my : Near (2 ^ e / 2 ^ 47) my v

theorem Chord.bounds (c : Chord e r mx my R u v h ρ t) : 0 < ρ ∧ h ≤ ρ ∧ R ≤ ρ ∧ ρ ≤ 2 ^ e ∧ |u| ≤ h ∧ |v| ≤ h ∧ h * t ≤ ρ ∧ (ρ = R ∨ ρ = h) := by
  have h0 := c.h0
  have hp : (0 : ℝ) < 2 ^ e := by positivity
  have t0 := c.t0
  have hh : h ≤ 2 ^ e := by
    have hu := sq_abs u
    have hv := sq_abs v
    have a := c.u1
    have b := c.v1
    have s := c.half
    have a0 := abs_nonneg u
    have b0 := abs_nonneg v
    generalize (2 : ℝ) ^ e = P at *
    by_contra hc
    nlinarith [not_le.1 hc]
  have l1 : h ≤ ρ := by rw [c.ρ1]; exact le_max_right _ _
  have ρ0 : 0 < ρ := h0.trans_le l1
  refine ⟨ρ0, l1, by rw [c.ρ1]; exact le_max_left _ _, ?_, ?_, ?_, ?_, ?_⟩
  · rw [c.ρ1]; exact max_le (by linarith [c.R1]) hh
  · apply abs_le_of_sq_le_sq _ h0.le
    nlinarith [c.half, sq_nonneg v]
  · apply abs_le_of_sq_le_sq _ h0.le
    nlinarith [c.half, sq_nonneg u]
  · apply le_of_sq_le_sq _ ρ0.le
    nlinarith [c.side, sq_nonneg h]
  · rw [c.ρ1]; exact max_choice R h

/-- The squares compared, and the length of half the chord. -/
theorem chord_facts (c : Chord e r mx my R u v h ρ t) : ∃ l k : ℚ, Is (mx *. mx +. my *. my) l ∧ Is (r *. r) k ∧
    |(l : ℝ) - h ^ 2| ≤ 8 / 2 ^ 40 * ρ ^ 2 ∧ |(k : ℝ) - R ^ 2| ≤ 2.1 / 2 ^ 40 * ρ ^ 2 ∧
    Near (h / 2 ^ 36) (GoFloat.sqrt (mx *. mx +. my *. my)) h := by
  obtain ⟨ρ0, hρ, Rρ, ρP, hu, hv, htρ, hcase⟩ := c.bounds
  have h0 := c.h0
  have R0 := c.R0
  have t0 := c.t0
  have e22 := c.e2
  have hl := c.long
  have P0 : (0 : ℝ) < 2 ^ e := by positivity
  have h2ρ : h ^ 2 ≤ ρ ^ 2 := by gcongr
  have hh0 : 0 < h ^ 2 := by positivity
  have Dh : (2 : ℝ) ^ e / 2 ^ 47 ≤ 1 / 2 ^ 40 * h := by
    rw [div_le_iff₀ (by positivity)]; refine hl.trans (le_of_eq ?_); ring
  have DR : (2 : ℝ) ^ e / 2 ^ 48 ≤ 1 / 2 ^ 41 * ρ := by
    rw [div_le_iff₀ (by positivity)]
    have : 1 / 2 ^ 41 * ρ * 2 ^ 48 = 2 ^ 7 * ρ := by ring
    rw [this]; linarith
  have D2 : (2 : ℝ) ^ e / 2 ^ 47 ≤ 2 ^ e / 2 := div_le_div_of_nonneg_left P0.le (by norm_num) (by norm_num)
  have D3 : (2 : ℝ) ^ e / 2 ^ 48 ≤ 2 ^ e / 2 := div_le_div_of_nonneg_left P0.le (by norm_num) (by norm_num)
  have su := near_square e22 c.mx hu Dh c.u1 D2 hl
  have sv := near_square e22 c.my hv Dh c.v1 D2 hl
  have sR := near_square e22 c.r (by rw [abs_of_pos R0]; exact Rρ) DR (by rw [abs_of_pos R0]; exact c.R1) D3 (by linarith)
  have e2 : (2 : ℝ) ^ (2 * e) = (2 ^ e) ^ 2 := by rw [mul_comm, pow_mul]
  have P2 : ((2 : ℝ) ^ e) ^ 2 ≤ 2 ^ 14 * h ^ 2 := by
    have : ((2 : ℝ) ^ e) ^ 2 ≤ (2 ^ 7 * h) ^ 2 := by gcongr
    refine this.trans (le_of_eq ?_); ring
  have hsum : u * u + v * v = h ^ 2 := by rw [← c.half]; ring
  have hP2 : h ^ 2 ≤ ((2 : ℝ) ^ e) ^ 2 / 2 := by
    have hu := sq_abs u
    have hv := sq_abs v
    have a := c.u1
    have b := c.v1
    have s := c.half
    have a0 := abs_nonneg u
    have b0 := abs_nonneg v
    generalize (2 : ℝ) ^ e = P at *
    nlinarith
  have nL : Near (h ^ 2 / 2 ^ 37) (mx *. mx +. my *. my) (h ^ 2) := by
    have := near_add su sv (E := 2 * e) (by omega) (by
      rw [hsum, e2, abs_of_pos hh0]
      generalize ((2 : ℝ) ^ e) ^ 2 = Q at *
      generalize h ^ 2 = H at *
      norm_num at *
      linarith)
    rw [hsum, e2] at this
    refine this.mono ?_
    generalize ((2 : ℝ) ^ e) ^ 2 = Q at *
    generalize h ^ 2 = H at *
    norm_num at P2 ⊢
    linarith
  have nR : Near (2.1 / 2 ^ 40 * ρ ^ 2) (r *. r) (R ^ 2) := by
    rw [← pow_two] at sR
    refine sR.mono ?_
    have : 0 < ρ ^ 2 := by positivity
    generalize ρ ^ 2 = Q at *
    norm_num
    linarith
  obtain ⟨l, l1, l2⟩ := nL
  obtain ⟨k, k1, k2⟩ := nR
  obtain ⟨l3, l4⟩ := abs_le.1 l2
  obtain ⟨k3, k4⟩ := abs_le.1 k2
  have lpos : 0 < (l : ℝ) := by
    generalize h ^ 2 = H at *
    norm_num at l3
    linarith
  -- the length of half the chord
  have nD : Near (h / 2 ^ 36) (GoFloat.sqrt (mx *. mx +. my *. my)) h := by
    have s1 : |Real.sqrt l - h| ≤ h / 2 ^ 37 := sqrt_close_sq lpos.le h0 (by
      have e : h / 2 ^ 37 * h = h ^ 2 / 2 ^ 37 := by ring
      rw [e]; exact l2)
    have hP : h ≤ 3 / 4 * 2 ^ e := by
      generalize (2 : ℝ) ^ e = P at *
      by_contra hc
      nlinarith [not_le.1 hc]
    have e3 : (2 : ℝ) ^ (e + 1) = 2 * 2 ^ e := by rw [pow_succ]; ring
    have s2 := sqrt_round l1 (by exact_mod_cast lpos.le) (E := e + 1) (by omega) (by
      have := (abs_le.1 s1).2
      rw [e3]
      generalize (2 : ℝ) ^ e = P at *
      norm_num at *
      linarith)
    refine (near_shift s2 s1).mono ?_
    rw [e3]
    generalize (2 : ℝ) ^ e = P at *
    norm_num at *
    linarith
  refine ⟨l, k, l1, k1, l2.trans ?_, k2, nD⟩
  generalize ρ ^ 2 = Q at *
  generalize h ^ 2 = H at *
  norm_num at h2ρ ⊢
  linarith

theorem Chord.height (c : Chord e r mx my R u v h ρ t) : (h * t) ^ 2 = ρ ^ 2 - h ^ 2 := by
  have := c.side; nlinarith

/-- The radii are too small or just large enough. -/
theorem chord_short (c : Chord e r mx my R u v h ρ t) (hlt : GoFloat.lt (r *. r) (mx *. mx +. my *. my) = true) :
    Near (1 / 2 ^ 10 * (ρ / 2 ^ 18)) (GoFloat.sqrt (mx *. mx +. my *. my)) ρ ∧
    Near (0.9 * (ρ / 2 ^ 18)) (my *. num 0) (v * t) ∧ Near (0.9 * (ρ / 2 ^ 18)) (mx *. num 0) (u * t) := by
  obtain ⟨l, k, l1, k1, l2, k2, nD⟩ := chord_facts c
  obtain ⟨ρ0, hρ, Rρ, ρP, hu, hv, htρ, hcase⟩ := c.bounds
  have side := c.height
  have t0 := c.t0
  have h0 := c.h0
  have hkl : k < l := (is_lt k1 l1).1 hlt
  have hkl : (k : ℝ) < l := by exact_mod_cast hkl
  have ρ2 : 0 < ρ ^ 2 := by positivity
  have gap : ρ ^ 2 - h ^ 2 ≤ 10.1 / 2 ^ 40 * ρ ^ 2 := by
    rcases hcase with hc | hc
    · rw [← hc] at k2
      have k3 := (abs_le.1 k2).1
      have l4 := (abs_le.1 l2).2
      generalize ρ ^ 2 = Q at *
      generalize h ^ 2 = H at *
      norm_num at k3 l4 ⊢
      linarith
    · rw [← hc, sub_self]
      positivity
  have ht : h * t ≤ 0.84 * (ρ / 2 ^ 18) := by
    apply le_of_sq_le_sq _ (by positivity)
    rw [side]
    refine gap.trans ?_
    have e : (0.84 * (ρ / 2 ^ 18)) ^ 2 = 0.84 ^ 2 / 2 ^ 36 * ρ ^ 2 := by ring
    rw [e]
    generalize ρ ^ 2 = Q at *
    norm_num
    linarith
  have z0 : Is (num 0 : F64) 0 := is_num rep_zero
  refine ⟨?_, ⟨0, is_mul_zero c.my z0, ?_⟩, ⟨0, is_mul_zero c.mx z0, ?_⟩⟩
  · have : |h - ρ| ≤ 10.1 / 2 ^ 40 * ρ := by
      rw [abs_sub_comm, abs_of_nonneg (by linarith)]
      by_contra hc
      have hc := not_le.1 hc
      nlinarith
    refine (near_shift nD this).mono ?_
    norm_num
    linarith
  · rw [Rat.cast_zero, zero_sub, abs_neg, abs_mul, abs_of_nonneg t0]
    have := mul_le_mul_of_nonneg_right hv t0
    norm_num at ht ⊢
    linarith
  · rw [Rat.cast_zero, zero_sub, abs_neg, abs_mul, abs_of_nonneg t0]
    have := mul_le_mul_of_nonneg_right hu t0
    norm_num at ht ⊢
    linarith

omit [Libm] in
theorem nearest_nonneg {x : F64} {p q : ℚ} (hn : Nearest x q) (hx : Is x p) (hq : 0 ≤ q) : 0 ≤ p := by
  obtain ⟨p', h1, h2⟩ := hn
  have := is_unique hx h1
  subst this
  have := h2 0 rep_zero
  rw [zero_sub, abs_neg, abs_of_nonneg hq] at this
  linarith [(abs_le.1 this).1]

/-- The radii are large enough or just too small. -/
theorem chord_long (c : Chord e r mx my R u v h ρ t) (hlt : ¬ GoFloat.lt (r *. r) (mx *. mx +. my *. my) = true) :
    Near (1 / 2 ^ 10 * (ρ / 2 ^ 18)) r ρ ∧
    Near (0.89 * (ρ / 2 ^ 18 / h)) (GoFloat.sqrt (r *. r -. (mx *. mx +. my *. my)) /. GoFloat.sqrt (mx *. mx +. my *. my)) t := by
  obtain ⟨l, k, l1, k1, l2, k2, nD⟩ := chord_facts c
  obtain ⟨ρ0, hρ, Rρ, ρP, hu, hv, htρ, hcase⟩ := c.bounds
  have side := c.height
  have t0 := c.t0
  have h0 := c.h0
  have R0 := c.R0
  have R1 := c.R1
  have e22 := c.e2
  have hl := c.long
  have P0 : (0 : ℝ) < 2 ^ e := by positivity
  have ht0 : 0 ≤ h * t := by positivity
  have hkl : l ≤ k := not_lt.1 fun h' => hlt ((is_lt k1 l1).2 h')
  have hklR : (l : ℝ) ≤ k := by exact_mod_cast hkl
  have ρ2 : 0 < ρ ^ 2 := by positivity
  have e2 : (2 : ℝ) ^ (2 * e) = (2 ^ e) ^ 2 := by rw [mul_comm, pow_mul]
  have e4 : (2 : ℝ) ^ (2 * e + 1) = 2 * (2 ^ e) ^ 2 := by rw [pow_succ, e2]; ring
  have P2 : ((2 : ℝ) ^ e) ^ 2 ≤ 2 ^ 14 * ρ ^ 2 := by
    have : ((2 : ℝ) ^ e) ^ 2 ≤ (2 ^ 7 * ρ) ^ 2 := by gcongr; linarith
    refine this.trans (le_of_eq ?_); ring
  have hρ2 : ρ ^ 2 ≤ ((2 : ℝ) ^ e) ^ 2 := by gcongr
  have d1 : |((k - l : ℚ) : ℝ) - (ρ ^ 2 - h ^ 2)| ≤ 10.1 / 2 ^ 40 * ρ ^ 2 := by
    push_cast
    rcases hcase with hc | hc
    · rw [← hc] at k2
      have e : (k : ℝ) - l - (ρ ^ 2 - h ^ 2) = (k - ρ ^ 2) - (l - h ^ 2) := by ring
      rw [e]
      refine (abs_sub _ _).trans ?_
      generalize ρ ^ 2 = Q at *
      norm_num at k2 l2 ⊢
      linarith
    · have hR : R ^ 2 ≤ ρ ^ 2 := by gcongr
      rw [← hc, sub_self, sub_zero, abs_of_nonneg (by linarith)]
      rw [← hc] at l2
      have k4 := (abs_le.1 k2).2
      have l3 := (abs_le.1 l2).1
      generalize ρ ^ 2 = Q at *
      generalize R ^ 2 = H at *
      norm_num at k4 l3 ⊢
      linarith
  have hside : 0 ≤ ρ ^ 2 - h ^ 2 := by rw [← side]; positivity
  have b1 : |ρ ^ 2 - h ^ 2| + 10.1 / 2 ^ 40 * ρ ^ 2 ≤ 2 ^ (2 * e + 1) := by
    rw [abs_of_nonneg hside, e4]
    have := sq_nonneg h
    generalize ((2 : ℝ) ^ e) ^ 2 = Q at *
    generalize ρ ^ 2 = S at *
    norm_num
    linarith
  have hn := sub_nearest k1 l1 (pow_bound (E := 2 * e + 1) (by omega) (abs_le_of_near d1 b1))
  obtain ⟨p, p1, p2⟩ := near_round hn d1 (by omega) b1
  have pp := nearest_nonneg hn p1 (by linarith)
  have p3 : |(p : ℝ) - (h * t) ^ 2| ≤ (0.88 * (ρ / 2 ^ 18)) ^ 2 := by
    rw [side]
    refine p2.trans ?_
    have e5 : (0.88 * (ρ / 2 ^ 18)) ^ 2 = 0.88 ^ 2 / 2 ^ 36 * ρ ^ 2 := by ring
    rw [e5, e4]
    generalize ((2 : ℝ) ^ e) ^ 2 = Q at *
    generalize ρ ^ 2 = S at *
    norm_num at P2 ⊢
    linarith
  have s1 := sqrt_close (by exact_mod_cast pp) (by positivity) (by positivity) p3
  rw [Real.sqrt_sq ht0] at s1
  have e3 : (2 : ℝ) ^ (e + 2) = 4 * 2 ^ e := by rw [pow_add]; ring
  have s2 := sqrt_round p1 pp (E := e + 2) (by omega) (by
    have := (abs_le.1 s1).2
    rw [e3]
    generalize (2 : ℝ) ^ e = P at *
    norm_num at this ⊢
    linarith)
  have nN : Near (0.881 * (ρ / 2 ^ 18)) (GoFloat.sqrt (r *. r -. (mx *. mx +. my *. my))) (h * t) := by
    refine (near_shift s2 s1).mono ?_
    rw [e3]
    generalize (2 : ℝ) ^ e = P at *
    norm_num at hl ⊢
    linarith
  constructor
  · have hd : |R - ρ| ≤ 10.1 / 2 ^ 40 * ρ := by
      rcases hcase with hc | hc
      · rw [← hc, sub_self, abs_zero]; positivity
      · rw [abs_sub_comm, abs_of_nonneg (by linarith)]
        rw [← hc] at l2
        have k4 := (abs_le.1 k2).2
        have l3 := (abs_le.1 l2).1
        have g : ρ ^ 2 - R ^ 2 ≤ 10.1 / 2 ^ 40 * ρ ^ 2 := by
          generalize ρ ^ 2 = Q at *
          generalize R ^ 2 = H at *
          norm_num at k4 l3 ⊢
          linarith
        by_contra hcon
        have hcon := not_le.1 hcon
        nlinarith
    refine (near_shift c.r hd).mono ?_
    generalize (2 : ℝ) ^ e = P at *
    norm_num at hl ⊢
    linarith
  · obtain ⟨w, hw⟩ : ∃ w, w = ρ / 2 ^ 18 / h := ⟨_, rfl⟩
    have wh : w * h = ρ / 2 ^ 18 := by rw [hw]; field_simp
    have w0 : 0 < w := by rw [hw]; positivity
    have w1 : 1 / 2 ^ 18 ≤ w := by
      rw [hw, le_div_iff₀ h0]; norm_num; linarith
    have w2 : w ≤ 1 / 2 ^ 11 := by
      rw [hw, div_le_iff₀ h0]
      generalize (2 : ℝ) ^ e = P at *
      norm_num at hl ⊢
      linarith
    have tw : t ≤ 2 ^ 18 * w := by
      rw [hw]
      have : 2 ^ 18 * (ρ / 2 ^ 18 / h) = ρ / h := by field_simp
      rw [this, le_div_iff₀ h0]; linarith
    have hq : h * t / h = t := by field_simp
    have key : (0.881 * (ρ / 2 ^ 18) + |t| * (h / 2 ^ 36)) / (|h| - h / 2 ^ 36) ≤ 0.882 * w := by
      rw [abs_of_pos h0, abs_of_nonneg t0, div_le_iff₀ (by norm_num; linarith)]
      have e5 : 0.882 * w * (h - h / 2 ^ 36) = 0.882 * (1 - 1 / 2 ^ 36) * (w * h) := by ring
      have e6 : t * (h / 2 ^ 36) = h * t / 2 ^ 36 := by ring
      rw [e5, wh, e6]
      norm_num at htρ ⊢
      linarith
    have nd := near_div nN nD (E := 8) (by norm_num) (by rw [abs_of_pos h0]; norm_num; linarith) (by
      rw [hq]
      generalize (0.881 * (ρ / 2 ^ 18) + |t| * (h / 2 ^ 36)) / (|h| - h / 2 ^ 36) = z at *
      rw [abs_of_nonneg t0]
      norm_num at *
      linarith)
    rw [hq] at nd
    rw [← hw]
    refine nd.mono ?_
    generalize (0.881 * (ρ / 2 ^ 18) + |t| * (h / 2 ^ 36)) / (|h| - h / 2 ^ 36) = z at *
    norm_num at key w1 ⊢
    linarith

/-- The radius and the position of the centre along the bisector. -/
theorem chord_scale (c : Chord e r mx my R u v h ρ t) : ∃ r' hr : F64,
    (if GoFloat.lt (r *. r) (mx *. mx +. my *. my) then
      (if GoFloat.eq r r then GoFloat.sqrt (mx *. mx +. my *. my) else r *. GoFloat.sqrt (mx *. mx +. my *. my) /. r,
        GoFloat.sqrt (mx *. mx +. my *. my), num 0)
    else (r, r, GoFloat.sqrt (r *. r -. (mx *. mx +. my *. my)) /. GoFloat.sqrt (mx *. mx +. my *. my)) : F64 × F64 × F64) = (r', r', hr) ∧
    Near (1 / 2 ^ 10 * (ρ / 2 ^ 18)) r' ρ ∧
    Near (0.9 * (ρ / 2 ^ 18)) (my *. hr) (v * t) ∧ Near (0.9 * (ρ / 2 ^ 18)) (mx *. hr) (u * t) := by
  by_cases hlt : GoFloat.lt (r *. r) (mx *. mx +. my *. my) = true
  · have heq : GoFloat.eq r r = true := by
      obtain ⟨p, h1, -⟩ := c.r
      exact (is_eq h1 h1).2 rfl
    rw [if_pos hlt, if_pos heq]
    obtain ⟨a1, a2, a3⟩ := chord_short c hlt
    exact ⟨_, _, rfl, a1, a2, a3⟩
  · rw [if_neg hlt]
    obtain ⟨a1, a2⟩ := chord_long c hlt
    obtain ⟨ρ0, hρ, Rρ, ρP, hu, hv, htρ, -⟩ := c.bounds
    have h0 := c.h0
    have t0 := c.t0
    have hl := c.long
    have e22 := c.e2
    have P0 : (0 : ℝ) < 2 ^ e := by positivity
    have e3 : (2 : ℝ) ^ (e + 1) = 2 * 2 ^ e := by rw [pow_succ]; ring
    have prod : ∀ {m : F64} {a : ℝ}, Near (2 ^ e / 2 ^ 47) m a → |a| ≤ h → Near (0.9 * (ρ / 2 ^ 18))
        (m *. (GoFloat.sqrt (r *. r -. (mx *. mx +. my *. my)) /. GoFloat.sqrt (mx *. mx +. my *. my))) (a * t) := by
      intro m a hm ha
      obtain ⟨w, hw⟩ : ∃ w, w = ρ / 2 ^ 18 / h := ⟨_, rfl⟩
      have wh : h * w = ρ / 2 ^ 18 := by rw [hw]; field_simp
      have w0 : 0 < w := by rw [hw]; positivity
      rw [← hw] at a2
      have Dh : (2 : ℝ) ^ e / 2 ^ 47 ≤ h / 2 ^ 40 := by
        rw [div_le_div_iff₀ (by positivity) (by positivity)]
        generalize (2 : ℝ) ^ e = P at *
        norm_num at hl ⊢
        linarith
      have t1 : 2 ^ e / 2 ^ 47 * |t| ≤ ρ / 2 ^ 40 := by
        rw [abs_of_nonneg t0]
        have := mul_le_mul_of_nonneg_right Dh t0
        have e5 : h / 2 ^ 40 * t = h * t / 2 ^ 40 := by ring
        rw [e5] at this
        refine this.trans ?_
        exact div_le_div_of_nonneg_right htρ (by positivity)
      have t2 : |a| * (0.89 * w) ≤ 0.89 * (ρ / 2 ^ 18) := by
        have := mul_le_mul_of_nonneg_right ha (by positivity : 0 ≤ 0.89 * w)
        refine this.trans (le_of_eq ?_)
        rw [← wh]; ring
      have t3 : 2 ^ e / 2 ^ 47 * (0.89 * w) ≤ 0.89 * (ρ / 2 ^ 18) / 2 ^ 40 := by
        have := mul_le_mul_of_nonneg_right Dh (by positivity : 0 ≤ 0.89 * w)
        refine this.trans (le_of_eq ?_)
        rw [← wh]; ring
      have t4 : |a * t| ≤ ρ := by
        rw [abs_mul, abs_of_nonneg t0]
        exact (mul_le_mul_of_nonneg_right ha t0).trans htρ
      have nm := near_mul hm a2 (E := e + 1) (by omega) (by
        rw [e3]
        generalize 2 ^ e / 2 ^ 47 * |t| = z1 at *
        generalize |a| * (0.89 * w) = z2 at *
        generalize 2 ^ e / 2 ^ 47 * (0.89 * w) = z3 at *
        generalize (2 : ℝ) ^ e = P at *
        norm_num at t1 t2 t3 t4 ⊢
        linarith)
      refine nm.mono ?_
      rw [e3]
      generalize 2 ^ e / 2 ^ 47 * |t| = z1 at *
      generalize |a| * (0.89 * w) = z2 at *
      generalize 2 ^ e / 2 ^ 47 * (0.89 * w) = z3 at *
      generalize (2 : ℝ) ^ e = P at *
      norm_num at t1 t2 t3 hl ⊢
      linarith
    exact ⟨_, _, rfl, a1, prod c.my hv, prod c.mx hu⟩

omit [Libm] in
theorem is_one_div {x : F64} {p : ℚ} (h : Is x p) (hp : p ≠ 0) : Is (div x x) 1 := by
  have := is_div h h hp (by rw [div_self hp]; exact rep_one)
  rwa [div_self hp] at this

/-- The centre of the circle through two points. -/
theorem centre_near (hL : Accurate) {r z x0 y0 x y : F64} {R X0 Y0 X1 Y1 h ρ t : ℝ} (e1 : 7 ≤ e) (e2 : e ≤ 22) (R0 : 2 ^ e / 2 ^ 40 ≤ R)
    (R1 : R ≤ 2 ^ e / 2) (h0 : 0 < h) (long : 2 ^ e ≤ 2 ^ 7 * h) (half : ((X1 - X0) / 2) ^ 2 + ((Y1 - Y0) / 2) ^ 2 = h ^ 2)
    (b1 : |X0| ≤ 2 ^ e / 2) (b2 : |Y0| ≤ 2 ^ e / 2) (b3 : |X1| ≤ 2 ^ e / 2) (b4 : |Y1| ≤ 2 ^ e / 2) (t0 : 0 ≤ t) (ρ1 : ρ = max R h)
    (side : h ^ 2 * (1 + t ^ 2) = ρ ^ 2) (nr : Near (2 ^ e / 2 ^ 48) r R) (n1 : Near (2 ^ e / 2 ^ 48) x0 X0) (n2 : Near (2 ^ e / 2 ^ 48) y0 Y0)
    (n3 : Near (2 ^ e / 2 ^ 48) x X1) (n4 : Near (2 ^ e / 2 ^ 48) y Y1) (hz : Is z 0) (sweep small : Bool) :
    let c := findEllipseCenter r r z x0 y0 x y sweep small
    let s : ℝ := if (sweep && small) || (!sweep && !small) then 1 else -1
    c.ra = c.rb ∧ Circ e c.cx c.cy c.rb (X0 + ((X1 - X0) / 2 + s * ((Y1 - Y0) / 2 * t))) (Y0 + ((Y1 - Y0) / 2 - s * ((X1 - X0) / 2 * t))) ρ := by
  have P0 : (0 : ℝ) < 2 ^ e := by positivity
  have e3 : (2 : ℝ) ^ (e + 1) = 2 * 2 ^ e := by rw [pow_succ]; ring
  have e4 : (2 : ℝ) ^ (e + 2) = 4 * 2 ^ e := by rw [pow_add]; ring
  -- sine and cosine of the rotation
  obtain ⟨hs0, hc1⟩ : Is (GoFloat.sin z : F64) 0 ∧ Is (GoFloat.cos z : F64) 1 := by
    obtain ⟨s, f, hf⟩ := is_zero_form hz
    rw [hf]
    refine ⟨?_, hL.cos_zero s f⟩
    have : GoFloat.sin (.fin s 0 f : F64) = .fin s 0 (-1074) := hL.sin_zero s f
    rw [this]
    exact ⟨s, 0, -1074, rfl, by decide, by simp⟩
  -- the ratio of the radii
  obtain ⟨rp, rp1, rp2⟩ := id nr
  have rp0 : rp ≠ 0 := by
    rintro rfl
    rw [Rat.cast_zero, zero_sub, abs_neg, abs_of_pos (lt_of_lt_of_le (by positivity) R0)] at rp2
    generalize (2 : ℝ) ^ e = P at *
    norm_num at rp2 R0
    linarith
  have one : Is (r /. r) 1 := is_one_div rp1 rp0
  have n2' : Near 0 (num 2 : F64) 2 := by simpa using near_num (n := 2) (by norm_num)
  -- half the chord
  have diff : ∀ {a b : F64} {A B : ℝ}, Near (2 ^ e / 2 ^ 48) a A → Near (2 ^ e / 2 ^ 48) b B → |A| ≤ 2 ^ e / 2 → |B| ≤ 2 ^ e / 2 →
      Near (33 / 16 * (2 ^ e / 2 ^ 48)) (a -. b) (A - B) ∧ |A - B| ≤ 2 ^ e := by
    intro a b A B ha hb hA hB
    have hAB : |A - B| ≤ 2 ^ e := (abs_sub A B).trans (by linarith)
    refine ⟨(near_sub ha hb (E := e + 1) (by omega) ?_).mono ?_, hAB⟩
    · rw [e3]
      generalize (2 : ℝ) ^ e = P at *
      norm_num at hAB ⊢
      linarith
    · rw [e3]
      generalize (2 : ℝ) ^ e = P at *
      norm_num
      linarith
  have halve : ∀ {a : F64} {A : ℝ}, Near (33 / 16 * (2 ^ e / 2 ^ 48)) a A → |A| ≤ 2 ^ e → Near (2 ^ e / 2 ^ 47) (a /. num 2) (A / 2) := by
    intro a A ha hA
    refine (near_div ha n2' (E := e) (by omega) (by norm_num) ?_).mono ?_
    · rw [abs_div, abs_two]
      generalize (2 : ℝ) ^ e = P at *
      norm_num at hA ⊢
      linarith
    · rw [abs_two]
      generalize (2 : ℝ) ^ e = P at *
      norm_num
      linarith
  obtain ⟨dx, dxb⟩ := diff n3 n1 b3 b1
  obtain ⟨dy, dyb⟩ := diff n4 n2 b4 b2
  have mX := halve (near_mul_one (near_add_zero' (near_mul_one dx hc1) (is_mul_zero dy hs0)) one) dxb
  have mY := halve (near_zero_add (near_mul_one dy hc1) (is_mul_zero (near_neg dx) hs0)) dyb
  have chord : Chord e r _ _ R ((X1 - X0) / 2) ((Y1 - Y0) / 2) h ρ t := ⟨e1, e2, lt_of_lt_of_le (by positivity) R0, R1, h0, long, half,
    by rw [abs_div, abs_two]; linarith, by rw [abs_div, abs_two]; linarith, t0, ρ1, side, nr, mX, mY⟩
  obtain ⟨ρ0, hρ, Rρ, ρP, hu, hv, htρ, -⟩ := chord.bounds
  obtain ⟨r', hr, q1, q2, q3, q4⟩ := chord_scale chord
  have vt : ∀ {a : ℝ}, |a| ≤ h → |a * t| ≤ ρ := by
    intro a ha
    rw [abs_mul, abs_of_nonneg t0]
    exact (mul_le_mul_of_nonneg_right ha t0).trans htρ
  have r'0 : ∃ p, Is r' p ∧ p ≠ 0 := by
    obtain ⟨p, p1, p2⟩ := q2
    refine ⟨p, p1, ?_⟩
    rintro rfl
    rw [Rat.cast_zero, zero_sub, abs_neg, abs_of_pos ρ0] at p2
    norm_num at p2
    linarith
  obtain ⟨rq, rq1, rq0⟩ := r'0
  have one' : Is (r' /. r') 1 := is_one_div rq1 rq0
  generalize hX : (((x -. x0) *. GoFloat.cos z +. (y -. y0) *. GoFloat.sin z) *. (r /. r) /. num 2 : F64) = midX at *
  generalize hY : ((GoFloat.neg (x -. x0) *. GoFloat.sin z +. (y -. y0) *. GoFloat.cos z) /. num 2 : F64) = midY at *
  have ub := chord.u1
  have vb := chord.v1
  clear chord
  generalize (X1 - X0) / 2 = u at *
  generalize (Y1 - Y0) / 2 = v at *
  -- sums
  have sums : ∀ {m w : F64} {a b : ℝ}, Near (2 ^ e / 2 ^ 47) m a → Near (0.9 * (ρ / 2 ^ 18)) w b → |a| ≤ 2 ^ e / 2 → |b| ≤ ρ →
      Near (0.91 * (ρ / 2 ^ 18)) (m +. w) (a + b) ∧ Near (0.91 * (ρ / 2 ^ 18)) (m -. w) (a - b) := by
    intro m w a b hm hw ha hb
    have s1 := abs_add_le a b
    have s2 := abs_sub a b
    constructor
    · refine (near_add hm hw (E := e + 1) (by omega) ?_).mono ?_ <;> rw [e3]
      all_goals
        generalize (2 : ℝ) ^ e = P at *
        norm_num at ha hb ρP long ⊢
        linarith
    · refine (near_sub hm hw (E := e + 1) (by omega) ?_).mono ?_ <;> rw [e3]
      all_goals
        generalize (2 : ℝ) ^ e = P at *
        norm_num at ha hb ρP long ⊢
        linarith
  have fin : ∀ {m o : F64} {a A : ℝ}, Near (0.91 * (ρ / 2 ^ 18)) m a → |a| ≤ 3 / 2 * 2 ^ e → Near (2 ^ e / 2 ^ 48) o A → |A| ≤ 2 ^ e / 2 →
      Near (9 / 8 * (ρ / 2 ^ 18)) (m +. o) (A + a) := by
    intro m o a A hm ha ho hA
    rw [add_comm A a]
    have s1 := abs_add_le a A
    refine (near_add hm ho (E := e + 2) (by omega) ?_).mono ?_ <;> rw [e4]
    all_goals
      generalize (2 : ℝ) ^ e = P at *
      norm_num at ha hA ρP long ⊢
      linarith
  have bd : ∀ {a b s : ℝ}, |a| ≤ 2 ^ e / 2 → |b| ≤ ρ → (s = 1 ∨ s = -1) → |a + s * b| ≤ 3 / 2 * 2 ^ e ∧ |a - s * b| ≤ 3 / 2 * 2 ^ e := by
    intro a b s ha hb hs
    have e5 : |s * b| = |b| := by rcases hs with rfl | rfl <;> simp
    have s1 := abs_add_le a (s * b)
    have s2 := abs_sub a (s * b)
    rw [e5] at s1 s2
    constructor <;> linarith
  have bvt := vt hv
  have but := vt hu
  intro c s
  have hs : s = 1 ∨ s = -1 := by
    simp only [s]; split <;> simp
  have main : ∀ cx0 cy0 : F64, (if (sweep && small) || (!sweep && !small) then (midX +. midY *. hr, midY -. midX *. hr)
      else (midX -. midY *. hr, midY +. midX *. hr)) = (cx0, cy0) →
      c = ⟨r', r', cx0 *. (r' /. r') *. GoFloat.cos z -. cy0 *. GoFloat.sin z +. x0, cx0 *. (r' /. r') *. GoFloat.sin z +. cy0 *. GoFloat.cos z +. y0⟩ ∧
      Near (0.91 * (ρ / 2 ^ 18)) cx0 (u + s * (v * t)) ∧ Near (0.91 * (ρ / 2 ^ 18)) cy0 (v - s * (u * t)) := by
    intro cx0 cy0 hc
    refine ⟨?_, ?_⟩
    · simp only [c, findEllipseCenter]
      rw [hX, hY, q1]
      dsimp only
      rw [hc]
    · obtain ⟨a1, a2⟩ := sums mX q3 ub bvt
      obtain ⟨a3, a4⟩ := sums mY q4 vb but
      simp only [s]
      split at hc
      · rename_i hb
        rw [Prod.mk.injEq] at hc
        rw [if_pos hb, ← hc.1, ← hc.2, one_mul, one_mul]
        exact ⟨a1, a4⟩
      · rename_i hb
        rw [Prod.mk.injEq] at hc
        rw [if_neg hb, ← hc.1, ← hc.2, neg_one_mul, neg_one_mul, ← sub_eq_add_neg, sub_neg_eq_add]
        exact ⟨a2, a3⟩
  obtain ⟨cx0, cy0, hcc⟩ : ∃ a b, (if (sweep && small) || (!sweep && !small) then (midX +. midY *. hr, midY -. midX *. hr)
      else (midX -. midY *. hr, midY +. midX *. hr)) = (a, b) := ⟨_, _, rfl⟩
  obtain ⟨m1, m2, m3⟩ := main cx0 cy0 hcc
  rw [m1]
  refine ⟨rfl, e2, ?_, ρP, ?_, ?_, ?_, ?_, q2⟩
  · linarith
  · have := abs_add_le X0 (u + s * (v * t))
    linarith [(bd ub bvt hs).1]
  · have := abs_add_le Y0 (v - s * (u * t))
    linarith [(bd vb but hs).2]
  · exact fin (near_sub_zero (near_mul_one (near_mul_one m2 one') hc1) (is_mul_zero m3 hs0)) (bd ub bvt hs).1 n1 b1
  · exact fin (near_zero_add (near_mul_one m3 hc1) (is_mul_zero (near_mul_one m2 one') hs0)) (bd vb but hs).2 n2 b2

end Centre

end GoSvg.F64
