import Verif.Lemmas.ArcAngle64

/-! A circular arc in binary64, from its centre to the stored cubics. -/

namespace GoSvg.F64

open Spec

variable [Libm]

theorem near_eighth (hL : Accurate) : Near (1 / 2 ^ 53) (GoFloat.piMul (1 / 8) : F64) (Real.pi / 8) := by
  have h := goPi_near
  have hpi := Real.pi_lt_d2
  have hpi0 := Real.pi_pos
  have e : (GoFloat.piMul (1 / 8) : F64) = roundRat false (1 / 8 * goPi) := hL.piMul (1 / 8)
  rw [e]
  have hd : |((1 / 8 * goPi : ℚ) : ℝ) - Real.pi / 8| ≤ 1 / 10 ^ 19 := by
    have e : ((1 / 8 * goPi : ℚ) : ℝ) - Real.pi / 8 = (((goPi : ℚ) : ℝ) - Real.pi) / 8 := by push_cast; ring
    rw [e, abs_div, abs_of_pos (by norm_num : (0 : ℝ) < 8)]
    linarith [abs_nonneg (((goPi : ℚ) : ℝ) - Real.pi)]
  have hb : |Real.pi / 8| + 1 / 10 ^ 19 ≤ 2 ^ 0 := by
    rw [abs_of_pos (by positivity)]
    norm_num at hpi ⊢
    linarith
  have := near_round (roundRat_nearest false (pow_bound (E := 0) (by norm_num) (abs_le_of_near hd hb))) hd (by norm_num) hb
  refine this.mono ?_
  norm_num

/-- The number of cubics. -/
theorem segs_near (hL : Accurate) {v : F64} {δ : ℝ} (h : Near (14 / 2 ^ 18) v δ) (hδ : |δ| ≤ 2 * Real.pi) :
    ∃ n : Nat, arcSegs v = (n : ℤ) ∧ 1 ≤ n ∧ n ≤ 17 ∧ |δ| ≤ 0.3935 * n := by
  have hpi := Real.pi_pos
  have hpi4 := Real.pi_lt_d4
  have hpi3 := Real.pi_gt_d4
  obtain ⟨q, h1, h2⟩ := h
  have ha := is_abs_val h1
  have hq : |(q : ℝ)| ≤ 6.2834 := by
    have := abs_sub_abs_le_abs_sub (q : ℝ) δ
    norm_num at *
    linarith
  have hqv : |((|q| : ℚ) : ℝ) / (Real.pi / 8)| ≤ 16.005 := by
    rw [abs_div, abs_of_pos (by positivity : 0 < Real.pi / 8), div_le_iff₀ (by positivity)]
    push_cast
    rw [abs_abs]
    norm_num at *
    linarith
  have nd := near_div (near_is ha) (near_eighth hL) (E := 5) (by norm_num) (by
    rw [abs_of_pos (by positivity : 0 < Real.pi / 8)]; norm_num at *; linarith) (by
    have : (0 + |((|q| : ℚ) : ℝ) / (Real.pi / 8)| * (1 / 2 ^ 53)) / (|Real.pi / 8| - 1 / 2 ^ 53) ≤ 1 := by
      rw [abs_of_pos (by positivity : 0 < Real.pi / 8), div_le_one (by norm_num at *; linarith)]
      norm_num at *
      linarith
    norm_num at *
    linarith)
  have nd : Near (1 / 2 ^ 40) _ _ := nd.mono (by
    have : (0 + |((|q| : ℚ) : ℝ) / (Real.pi / 8)| * (1 / 2 ^ 53)) / (|Real.pi / 8| - 1 / 2 ^ 53) ≤ 1 / 2 ^ 41 := by
      rw [abs_of_pos (by positivity : 0 < Real.pi / 8), div_le_iff₀ (by norm_num at *; linarith)]
      norm_num at *
      linarith
    norm_num at *
    linarith)
  obtain ⟨f, f1, f2⟩ := nd
  obtain ⟨g1, g2⟩ := abs_le.1 f2
  have hq0 : 0 ≤ ((|q| : ℚ) : ℝ) / (Real.pi / 8) := by push_cast; positivity
  have hq1 := (abs_le.1 hqv).2
  obtain ⟨t1, t2⟩ := tdiv_isTrunc f
  have htr : ∃ m : Nat, f.num.tdiv f.den = (m : ℤ) ∧ m ≤ 16 ∧ (f : ℝ) < m + 1 := by
    generalize f.num.tdiv f.den = j at *
    rcases le_or_gt 0 (f : ℝ) with h0 | h0
    · obtain ⟨u1, u2⟩ := t1 h0
      have j0 : (-1 : ℝ) < j := by linarith
      have j1 : (j : ℝ) < 17 := by
        have : (1 : ℝ) / 2 ^ 40 ≤ 1 / 2 := by norm_num
        have : (16.005 : ℝ) ≤ 16.5 := by norm_num
        linarith
      have j0' : -1 < j := by exact_mod_cast j0
      have j1' : j < 17 := by exact_mod_cast j1
      refine ⟨j.toNat, by omega, by omega, ?_⟩
      have : ((j.toNat : ℤ) : ℝ) = j := by congr 1; omega
      rw [Int.cast_natCast] at this
      rw [this]; exact u2
    · obtain ⟨u1, u2⟩ := t2 h0
      have j0 : (-1 : ℝ) < j := by
        have : (1 : ℝ) / 2 ^ 40 ≤ 1 / 2 := by norm_num
        linarith
      have j1 : (j : ℝ) < 1 := by linarith
      have j0' : -1 < j := by exact_mod_cast j0
      have j1' : j < 1 := by exact_mod_cast j1
      refine ⟨0, by omega, by omega, by push_cast; linarith⟩
  obtain ⟨m, m1, m2, m3⟩ := htr
  refine ⟨m + 1, ?_, by omega, by omega, ?_⟩
  · have e1 : GoFloat.toInt (GoFloat.abs v /. GoFloat.piMul (1 / 8)) = (m : ℤ) := by
      have e0 := trunc_of f1
      rw [m1] at e0
      have hf := f1
      obtain ⟨s, a, b, hv, -⟩ := hf
      change toSigned 63 (GoFloat.abs v /. GoFloat.piMul (1 / 8)) = _
      change trunc (GoFloat.abs v /. GoFloat.piMul (1 / 8)) = _ at e0
      change GoFloat.abs v /. GoFloat.piMul (1 / 8) = _ at hv
      rw [hv] at e0 ⊢
      simp only [toSigned]
      rw [e0, if_pos ⟨by omega, by omega⟩]
    unfold arcSegs
    rw [e1]
    have e2 : wrap64 ((m : ℤ) + 1) = (m : ℤ) + 1 := by
      unfold wrap64
      rw [Int.bmod_eq_of_le] <;> omega
    rw [e2]
    push_cast
    rfl
  · have e3 : ((|q| : ℚ) : ℝ) / (Real.pi / 8) ≤ m + 1 + 1 / 2 ^ 40 := by linarith
    rw [div_le_iff₀ (by positivity)] at e3
    push_cast at e3 ⊢
    have e4 : ((m : ℝ) + 1 + 1 / 2 ^ 40) * (Real.pi / 8) ≤ (m + 1 + 1 / 2 ^ 40) * 0.3927 :=
      mul_le_mul_of_nonneg_left (by norm_num at *; linarith) (by positivity)
    have e5 := abs_sub_abs_le_abs_sub δ (q : ℝ)
    rw [abs_sub_comm] at e5
    have m0 : (0 : ℝ) ≤ m := by positivity
    norm_num at *
    linarith

theorem near_shift {d e : ℝ} {x : F64} {r s : ℝ} (h : Near d x r) (hs : |r - s| ≤ e) : Near (d + e) x s := by
  obtain ⟨p, h1, h2⟩ := h
  exact ⟨p, h1, (abs_sub_le _ r _).trans (add_le_add h2 hs)⟩

/-- The factor of the tangents. -/
theorem arc_alpha (hL : Accurate) {x : F64} {θ : ℝ} (h : Near (13.4 / 2 ^ 18) x θ) (hθ : |θ| ≤ 0.3935) :
    Near (8 / 2 ^ 18) (GoFloat.sin x *. (GoFloat.sqrt (num 4 +. num 3 *. GoFloat.tan (x /. num 2) *. GoFloat.tan (x /. num 2)) -. num 1) /. num 3)
      (alphaOf θ) := by
  obtain ⟨q, q1, q2⟩ := h
  have hq : |(q : ℝ)| ≤ 0.394 := by
    have := abs_sub_abs_le_abs_sub (q : ℝ) θ
    norm_num at *
    linarith
  have hθ' : |θ| ≤ 0.394 := hθ.trans (by norm_num)
  have n3 : Near 0 (num 3 : F64) 3 := by simpa using near_num (n := 3) (by norm_num)
  have na := near_arms hL hq ((near_is q1).mono (by norm_num))
  have ha := alphaOf_abs hq
  have hl := alphaOf_lip hq hθ'
  have nb : Near (1 / 2 ^ 40) _ (alphaOf q) := (near_div na n3 (E := 0) (by norm_num) (by norm_num) (by
    change |alphaOf q| + _ ≤ _
    generalize alphaOf q = a at *
    rw [abs_of_pos (by norm_num : (0 : ℝ) < 3)]
    norm_num at ha ⊢
    linarith)).mono (by rw [abs_of_pos (by norm_num : (0 : ℝ) < 3)]; norm_num)
  refine (near_shift nb (hl.trans (mul_le_mul_of_nonneg_left q2 (by norm_num)))).mono ?_
  norm_num

/-- The angles of the ends of the cubics. -/
theorem near_angles {v y : F64} {η δ : ℝ} {n : Nat} (n1 : 1 ≤ n) (n2 : n ≤ 17) (hv : Near (13.2 / 2 ^ 18) v δ) (hδ : |δ| ≤ 6.2832)
    (hy : Near (6.6 / 2 ^ 18) y η) (hη : |η| ≤ 3.142) :
    Near (13.3 / 2 ^ 18) (v /. GoFloat.ofInt (n : ℤ)) (δ / n) ∧
      ∀ i : Nat, i ≤ n → Near (21 / 2 ^ 18) (y +. v /. GoFloat.ofInt (n : ℤ) *. GoFloat.ofInt (i : ℤ)) (η + δ / n * i) ∧
        |η + δ / n * i| ≤ 9.9 := by
  have n1' : (1 : ℝ) ≤ n := by exact_mod_cast n1
  have n2' : (n : ℝ) ≤ 17 := by exact_mod_cast n2
  have n0 : (0 : ℝ) < n := by linarith
  have hdn : |δ / n| ≤ 6.2832 := by
    rw [abs_div, abs_of_pos n0, div_le_iff₀ n0]
    norm_num at hδ ⊢
    nlinarith
  have hd : (13.2 : ℝ) / 2 ^ 18 / n ≤ 13.2 / 2 ^ 18 := div_le_self (by norm_num) n1'
  have nd : Near (13.2 / 2 ^ 18 / n + 1 / 2 ^ 51) (v /. GoFloat.ofInt (n : ℤ)) (δ / n) := by
    refine (near_div hv (near_ofInt (n := n) (by omega)) (E := 3) (by norm_num) (by rw [abs_of_pos n0]; exact n0) ?_).mono ?_
    · rw [abs_of_pos n0, mul_zero, add_zero, sub_zero]
      norm_num at hdn hd ⊢
      linarith
    · rw [abs_of_pos n0, mul_zero, add_zero, sub_zero]
      norm_num
  refine ⟨nd.mono (by norm_num at hd ⊢; linarith), ?_⟩
  intro i hi
  have i0 : (0 : ℝ) ≤ i := by positivity
  have i1 : (i : ℝ) ≤ n := by exact_mod_cast hi
  have hm : |δ / n * i| ≤ 6.2832 := by
    rw [abs_mul, abs_div, abs_of_pos n0, abs_of_nonneg i0]
    have : |δ| / n * i ≤ |δ| / n * n := mul_le_mul_of_nonneg_left i1 (by positivity)
    rw [div_mul_cancel₀ _ n0.ne'] at this
    exact this.trans hδ
  have hs : (13.2 / 2 ^ 18 / (n : ℝ) + 1 / 2 ^ 51) * (i : ℝ) ≤ 13.2 / 2 ^ 18 + 1 / 2 ^ 46 := by
    have h1 : (13.2 / 2 ^ 18 / (n : ℝ) + 1 / 2 ^ 51) * (i : ℝ) ≤ (13.2 / 2 ^ 18 / (n : ℝ) + 1 / 2 ^ 51) * (n : ℝ) :=
      mul_le_mul_of_nonneg_left i1 (by positivity)
    have h2 : (13.2 / 2 ^ 18 / (n : ℝ) + 1 / 2 ^ 51) * (n : ℝ) = 13.2 / 2 ^ 18 + 1 / 2 ^ 51 * n := by field_simp
    have h3 : (1 : ℝ) / 2 ^ 51 * n ≤ 1 / 2 ^ 46 := by
      have : (1 : ℝ) / 2 ^ 51 * n ≤ 1 / 2 ^ 51 * 17 := mul_le_mul_of_nonneg_left n2' (by positivity)
      exact this.trans (by norm_num)
    linarith
  have nm : Near (13.3 / 2 ^ 18) (v /. GoFloat.ofInt (n : ℤ) *. GoFloat.ofInt (i : ℤ)) (δ / n * i) := by
    have nm := near_mul nd (near_ofInt (n := i) (by omega)) (E := 3) (by norm_num) (by
      rw [abs_of_nonneg i0, mul_zero, mul_zero, add_zero, add_zero]
      generalize (13.2 / 2 ^ 18 / (n : ℝ) + 1 / 2 ^ 51) * (i : ℝ) = w at *
      generalize |δ / n * i| = w' at *
      norm_num at hs hm ⊢
      linarith)
    refine nm.mono ?_
    rw [abs_of_nonneg i0, mul_zero, mul_zero, add_zero, add_zero]
    generalize (13.2 / 2 ^ 18 / (n : ℝ) + 1 / 2 ^ 51) * (i : ℝ) = w at *
    norm_num at hs ⊢
    linarith
  have hsum := abs_add_le η (δ / n * i)
  generalize δ / n * i = w' at *
  refine ⟨(near_add hy nm (E := 4) (by norm_num) ?_).mono (by norm_num), ?_⟩
  · norm_num at hη hm hsum ⊢; linarith
  · norm_num at hη hm hsum ⊢; linarith

section Draw
variable {e : Nat} {cx cy r : F64} {X Y ρ : ℝ}

omit [Libm] in
/-- The angle computed is the one of the arc, not one of its turns. -/
theorem arc_turn_unique {w δ : ℝ} {K : ℤ} (sw : Bool) (hw : |w - (δ + K * (2 * Real.pi))| ≤ 13.1 / 2 ^ 18)
    (hr : if sw then -(1 / 2 ^ 46) ≤ w ∧ w ≤ 2 * Real.pi + 1 / 2 ^ 46 else -(2 * Real.pi + 1 / 2 ^ 46) ≤ w ∧ w ≤ 1 / 2 ^ 46)
    (hdir : if sw then 0 < δ else δ < 0) (m1 : 1 / 2 ^ 8 ≤ |δ|) (m2 : |δ| ≤ 2 * Real.pi - 1 / 2 ^ 8) : K = 0 := by
  have hpi := Real.pi_gt_three
  obtain ⟨a1, a2⟩ := abs_le.1 hw
  by_contra hK
  have hpK : ∀ {k : ℤ}, 1 ≤ k → 2 * Real.pi ≤ (k : ℝ) * (2 * Real.pi) := by
    intro k hk
    have : (1 : ℝ) ≤ k := by exact_mod_cast hk
    nlinarith
  have hnK : ∀ {k : ℤ}, k ≤ -1 → (k : ℝ) * (2 * Real.pi) ≤ -(2 * Real.pi) := by
    intro k hk
    have : (k : ℝ) ≤ -1 := by exact_mod_cast hk
    nlinarith
  rcases (by omega : 1 ≤ K ∨ K ≤ -1) with h | h
  · have h1 := hpK h
    generalize (K : ℝ) * (2 * Real.pi) = t at *
    cases sw
    · simp only [Bool.false_eq_true, if_false] at hr hdir
      rw [abs_of_neg hdir] at m1 m2
      norm_num at *
      linarith [hr.1, hr.2]
    · simp only [if_true] at hr hdir
      rw [abs_of_pos hdir] at m1 m2
      norm_num at *
      linarith [hr.1, hr.2]
  · have h1 := hnK h
    generalize (K : ℝ) * (2 * Real.pi) = t at *
    cases sw
    · simp only [Bool.false_eq_true, if_false] at hr hdir
      rw [abs_of_neg hdir] at m1 m2
      norm_num at *
      linarith [hr.1, hr.2]
    · simp only [if_true] at hr hdir
      rw [abs_of_pos hdir] at m1 m2
      norm_num at *
      linarith [hr.1, hr.2]

theorem rot_zero {x : F64} (h : Is x 0) (hL : Accurate) : Is (x *. GoFloat.piMul 1 /. num 180) 0 := by
  obtain ⟨p, hp⟩ : ∃ p, Is (GoFloat.piMul 1 : F64) p := by
    have e : (GoFloat.piMul 1 : F64) = roundRat false (1 * goPi) := hL.piMul 1
    rw [e]
    exact (roundRat_nearest false (pow_bound (q := 1 * goPi) (E := 2) (by norm_num) (by unfold goPi; norm_num))).imp fun _ h => h.1
  have h1 : Is (x *. GoFloat.piMul 1) 0 := is_mul' h hp (zero_mul _) rep_zero
  have h2 : Is (num 180 : F64) 180 := is_num (by simpa using rep_nat (n := 180) (by norm_num))
  have := is_div h1 h2 (by norm_num) (by rw [zero_div]; exact rep_zero)
  rw [zero_div] at this
  exact this

/-- The cubics stored for an arc of a circle whose centre and radius are known up to a small error. -/
theorem addArc_near (hL : Accurate) (hA : Angular) (h : Circ e cx cy r X Y ρ) (he : 7 ≤ e) {p : ArcArgs F64} (hp1 : p.rx = r) (hp2 : p.ry = r)
    (hrot : Is p.rot 0) {px py : F64} {x0 y0 x y η0 δ0 : ℝ} (hpx : Near (ρ / 2 ^ 40) px x0) (hpy : Near (ρ / 2 ^ 40) py y0)
    (hx : Near (ρ / 2 ^ 40) p.x x) (hy : Near (ρ / 2 ^ 40) p.y y)
    (s1 : x0 = X + ρ * Real.cos η0) (s2 : y0 = Y + ρ * Real.sin η0) (s3 : x = X + ρ * Real.cos (η0 + δ0)) (s4 : y = Y + ρ * Real.sin (η0 + δ0))
    (hdir : if (!GoFloat.eq p.sweep (num 0)) then 0 < δ0 else δ0 < 0) (m1 : 1 / 2 ^ 8 ≤ |δ0|) (m2 : |δ0| ≤ 2 * Real.pi - 1 / 2 ^ 8) :
    ∃ (k : ℤ) (n : Nat), 1 ≤ n ∧ n ≤ 17 ∧ |δ0| ≤ 0.3935 * n ∧
      List.Forall₂ (OpWithin (1 / 64 + ρ / 2 ^ 12)) (addArc p cx cy px py).1
        ((cubics ⟨X, Y, ρ, ρ, 0⟩ (η0 + k * (2 * Real.pi)) (δ0 / n) (alphaOf (δ0 / n)) (x, y) n 0 (x0, y0)).map cubicOp) ∧
      (addArc p cx cy px py).2 = (p.x, p.y) := by
  have p0 := h.pos
  have hb := h.big
  have hsm := h.small
  have hpi := Real.pi_gt_three
  have hpi4 := Real.pi_lt_d4
  have hz := rot_zero hrot hL
  have he22 := h.he
  -- differences from the centre
  have diff : ∀ {a b : F64} {A C D : ℝ}, Near (ρ / 2 ^ 40) a A → Near (9 / 8 * (ρ / 2 ^ 18)) b C → A = C + ρ * D → |D| ≤ 1 →
      Near (1.15 * (ρ / 2 ^ 18)) (a -. b) (ρ * D) := by
    intro a b A C D ha hb' hA hD
    have hd : A - C = ρ * D := by rw [hA]; ring
    have hbd : |ρ * D| ≤ ρ := by rw [abs_mul, abs_of_pos p0]; nlinarith
    have e1 : (2 : ℝ) ^ (e + 1) = 2 * 2 ^ e := by rw [pow_succ]; ring
    have := near_sub ha hb' (E := e + 1) (by omega) (by
      rw [hd, e1]
      generalize (2 : ℝ) ^ e = P at *
      norm_num at *
      linarith)
    rw [hd] at this
    refine this.mono ?_
    rw [e1]
    generalize (2 : ℝ) ^ e = P at *
    norm_num at *
    linarith
  have rad : ∀ t : ℝ, (ρ * Real.cos t) ^ 2 + (ρ * Real.sin t) ^ 2 = ρ ^ 2 := by
    intro t; rw [mul_pow, mul_pow, ← mul_add, Real.cos_sq_add_sin_sq, mul_one]
  obtain ⟨As, bs, ns, cs, ss⟩ := eta_near hA h he (rad η0) (diff hpx h.cx s1 (Real.abs_cos_le_one _)) (diff hpy h.cy s2 (Real.abs_sin_le_one _)) hz
  obtain ⟨Ae, be, ne, ce, se⟩ := eta_near hA h he (rad (η0 + δ0)) (diff hx h.cx s3 (Real.abs_cos_le_one _)) (diff hy h.cy s4 (Real.abs_sin_le_one _)) hz
  rw [mul_div_cancel_left₀ _ p0.ne'] at cs ss ce se
  obtain ⟨k1, q1⟩ := angle_close cs ss
  obtain ⟨k2, q2⟩ := angle_close ce se
  obtain ⟨etaS, hetaS⟩ : ∃ v, v = (arcDeltaEta p cx cy px py).1 := ⟨_, rfl⟩
  obtain ⟨v3, hv3⟩ : ∃ v, v = (arcDeltaEta p cx cy px py).2 := ⟨_, rfl⟩
  have ns' : Near (1 / 2 ^ 50) etaS As := by
    rw [hetaS]; unfold arcDeltaEta; dsimp only; rw [hp1, hp2]; exact ns
  obtain ⟨k, nv, rng⟩ := delta_near hL ns ne bs be
    ((GoFloat.lt (GoFloat.piMul 1) (GoFloat.abs (GoFloat.atan2 (p.y -. cy) (p.x -. cx) -. p.rot *. GoFloat.piMul 1 /. num 180 -.
      (GoFloat.atan2 (py -. cy) (px -. cx) -. p.rot *. GoFloat.piMul 1 /. num 180))) && !(!GoFloat.eq p.large (num 0))) ||
      (!(GoFloat.lt (GoFloat.piMul 1) (GoFloat.abs (GoFloat.atan2 (p.y -. cy) (p.x -. cx) -. p.rot *. GoFloat.piMul 1 /. num 180 -.
      (GoFloat.atan2 (py -. cy) (px -. cx) -. p.rot *. GoFloat.piMul 1 /. num 180)))) && (!GoFloat.eq p.large (num 0))))
    (!GoFloat.eq p.sweep (num 0))
  have nv : Near (1 / 2 ^ 46) v3 (Ae - As + k * (2 * Real.pi)) := by
    rw [hv3]; unfold arcDeltaEta; dsimp only; rw [hp1, hp2]; exact nv
  obtain ⟨w, hw⟩ : ∃ w, w = Ae - As + k * (2 * Real.pi) := ⟨_, rfl⟩
  rw [← hw] at nv rng
  have hwK : |w - (δ0 + ((k2 - k1 + k : ℤ) : ℝ) * (2 * Real.pi))| ≤ 13.1 / 2 ^ 18 := by
    have e : w - (δ0 + ((k2 - k1 + k : ℤ) : ℝ) * (2 * Real.pi)) =
        (Ae - (η0 + δ0 + k2 * (2 * Real.pi))) - (As - (η0 + k1 * (2 * Real.pi))) := by rw [hw]; push_cast; ring
    rw [e]
    refine (abs_sub _ _).trans ?_
    norm_num at q1 q2 ⊢
    linarith
  have hK := arc_turn_unique _ hwK rng hdir m1 m2
  rw [hK, Int.cast_zero, zero_mul, add_zero] at hwK
  have nδ : Near (13.2 / 2 ^ 18) v3 δ0 := (near_shift nv hwK).mono (by norm_num)
  have hδb : |δ0| ≤ 6.2832 := by norm_num at *; linarith
  have hη : Near (6.6 / 2 ^ 18) etaS (η0 + k1 * (2 * Real.pi)) := (near_shift ns' q1).mono (by norm_num)
  have hηb : |η0 + k1 * (2 * Real.pi)| ≤ 3.142 := by
    have := abs_sub_abs_le_abs_sub (η0 + k1 * (2 * Real.pi)) As
    rw [abs_sub_comm] at this
    norm_num at *
    linarith
  obtain ⟨n, hn, n1, n2, n3⟩ := segs_near hL (nδ.mono (by norm_num)) (by linarith [m2] : |δ0| ≤ 2 * Real.pi)
  obtain ⟨nd, nang⟩ := near_angles n1 n2 nδ hδb hη hηb
  have n0 : (0 : ℝ) < n := by exact_mod_cast n1
  have hθ : |δ0 / n| ≤ 0.3935 := by rw [abs_div, abs_of_pos n0, div_le_iff₀ n0]; exact n3
  have nal := arc_alpha hL (nd.mono (by norm_num)) hθ
  obtain ⟨hs0, hc1⟩ : Is (GoFloat.sin (p.rot *. GoFloat.piMul 1 /. num 180) : F64) 0 ∧
      Is (GoFloat.cos (p.rot *. GoFloat.piMul 1 /. num 180) : F64) 1 := by
    obtain ⟨s, f, hf⟩ := is_zero_form hz
    rw [hf]
    refine ⟨?_, hL.cos_zero s f⟩
    have : GoFloat.sin (.fin s 0 f : F64) = .fin s 0 (-1074) := hL.sin_zero s f
    rw [this]
    exact ⟨s, 0, -1074, rfl, by decide, by simp⟩
  have small : ρ / 2 ^ 40 ≤ 24 * (ρ / 2 ^ 18) := by norm_num; linarith
  have bnd : ∀ t : ℝ, |X + ρ * Real.cos t| ≤ 3 * 2 ^ e ∧ |Y + ρ * Real.sin t| ≤ 3 * 2 ^ e := by
    intro t
    have := (circ_bounds h t).1
    simpa [Ellipse.point] using this
  have a0 := nang 0 (Nat.zero_le _)
  have ang0 : Near (21 / 2 ^ 18) etaS (η0 + k1 * (2 * Real.pi)) := hη.mono (by norm_num)
  have tang := circ_tangent hA h hs0 hc1 ang0 (hηb.trans (by norm_num))
  have loop := circ_loop hA h hp1 hp2 (stop := (x, y)) (hx.mono small) (hy.mono small)
    ⟨by rw [s3]; exact (bnd _).1, by rw [s4]; exact (bnd _).2⟩ hs0 hc1 nang nal (alphaOf_abs (hθ.trans (by norm_num))) n 0 (by omega)
    px py _ _ (x0, y0) (hpx.mono small) (hpy.mono small) ⟨by rw [s1]; exact (bnd _).1, by rw [s2]; exact (bnd _).2⟩
    (by rw [Nat.cast_zero, mul_zero, add_zero]; exact tang.1) (by rw [Nat.cast_zero, mul_zero, add_zero]; exact tang.2)
  have eA : addArc p cx cy px py = ellLoop p cx cy (GoFloat.sin (p.rot *. GoFloat.piMul 1 /. num 180)) (GoFloat.cos (p.rot *. GoFloat.piMul 1 /. num 180))
      etaS (v3 /. GoFloat.ofInt (n : ℤ)) (GoFloat.sin (v3 /. GoFloat.ofInt (n : ℤ)) *. (GoFloat.sqrt (num 4 +. num 3 *.
        GoFloat.tan (v3 /. GoFloat.ofInt (n : ℤ) /. num 2) *. GoFloat.tan (v3 /. GoFloat.ofInt (n : ℤ) /. num 2)) -. num 1) /. num 3) n (0 + 1) px py
      (ellipsePrime r r (GoFloat.sin (p.rot *. GoFloat.piMul 1 /. num 180)) (GoFloat.cos (p.rot *. GoFloat.piMul 1 /. num 180)) etaS cx cy).1
      (ellipsePrime r r (GoFloat.sin (p.rot *. GoFloat.piMul 1 /. num 180)) (GoFloat.cos (p.rot *. GoFloat.piMul 1 /. num 180)) etaS cx cy).2 := by
    unfold addArc
    dsimp only
    rw [← hetaS, ← hv3, hn, Int.toNat_natCast, hp1, hp2]
  refine ⟨k1, n, n1, n2, n3, ?_, ?_⟩
  · rw [eA]; exact loop.1
  · rw [eA]; exact loop.2 n1

end Draw

end GoSvg.F64
