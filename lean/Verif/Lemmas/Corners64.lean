import Verif.Lemmas.CornersReal
import Verif.Lemmas.EllipseError
import Verif.Lemmas.MatrixError
import Verif.Props.Float64Matrix
import Verif.Props.ShapeError

/-! The rounded corners of rectangles in binary64. -/

namespace GoSvg.F64

open Spec

/-- The square root of the square of a natural number that can be represented. -/
theorem sqrt_square {x : F64} {R : ℕ} (hR : 0 < R) (hb : R < 2 ^ 53) (hx : Is x ((R : ℚ) * R)) : Is (sqrt x) R := by
  have hRq : (0 : ℚ) < R := by exact_mod_cast hR
  obtain ⟨s, m, e, rfl, ⟨hm, he1, he2⟩, hv⟩ := hx
  have hs : s = false := by
    cases s
    · rfl
    · simp only [if_true] at hv
      have : (0 : ℚ) ≤ m * 2 ^ e := by positivity
      nlinarith
  subst hs
  simp only [Bool.false_eq_true, if_false] at hv
  have hm0 : m ≠ 0 := by
    rintro rfl
    simp at hv
    omega
  unfold sqrt
  dsimp only
  rw [if_neg hm0, if_neg (by simp)]
  obtain ⟨k, hk⟩ : ∃ k : Nat, k = if e % 2 = 0 then 120 else 121 := ⟨_, rfl⟩
  rw [← hk]
  have hk2 : 120 ≤ k ∧ k ≤ 121 := by split at hk <;> omega
  have hE := emod_half hk
  obtain ⟨n, hn⟩ : ∃ n, n = m * 2 ^ k := ⟨_, rfl⟩
  rw [← hn]
  have hnlt : n < 2 ^ 174 := by
    rw [hn]
    calc m * 2 ^ k < 2 ^ 53 * 2 ^ k := Nat.mul_lt_mul_of_pos_right hm (by positivity)
      _ ≤ 2 ^ 53 * 2 ^ 121 := Nat.mul_le_mul_left _ (Nat.pow_le_pow_right (by norm_num) hk2.2)
      _ = 2 ^ 174 := by norm_num
  obtain ⟨r1, r2⟩ := natSqrt_spec n 100 0 (by omega) (by
    refine hnlt.trans_le ?_
    norm_num)
  generalize natSqrt n 100 0 = r at *
  obtain ⟨E, hEd⟩ : ∃ E : ℤ, E = (e - k) / 2 := ⟨_, rfl⟩
  rw [← hEd] at hE ⊢
  rw [twoPow_eq]
  have hpos : (0 : ℚ) < 2 ^ E := by positivity
  have e1 : (R : ℚ) * R = n * (2 ^ E * 2 ^ E) := by
    rw [← hv, hn]
    push_cast
    rw [← zpow_add₀ (by norm_num : (2 : ℚ) ≠ 0), ← two_mul, hE, mul_assoc, ← zpow_natCast, ← zpow_add₀ (by norm_num : (2 : ℚ) ≠ 0)]
    congr 2
    omega
  have hsq : IsSquare (n : ℚ) := ⟨R / 2 ^ E, by field_simp; rw [pow_two, pow_two]; linarith⟩
  obtain ⟨j, hj⟩ := Rat.isSquare_natCast_iff.1 hsq
  have hrj : r = j := by
    rw [hj] at r1 r2
    have a1 : r ≤ j := Nat.mul_self_le_mul_self_iff.1 r1
    have a2 : j < r + 1 := Nat.mul_self_lt_mul_self_iff.1 r2
    omega
  rw [if_pos (by rw [hrj, hj])]
  have hval : (r : ℚ) * 2 ^ E = R := by
    have : ((r : ℚ) * 2 ^ E) * ((r : ℚ) * 2 ^ E) = R * R := by rw [e1, hj, hrj]; push_cast; ring
    exact (mul_self_inj_of_nonneg (by positivity) hRq.le).1 this
  rw [hval]
  have := roundRat_exact (z := false) (q := (R : ℚ)) (rep_nat hb)
  rwa [roundRat, if_neg hRq.ne', if_neg (by linarith), decide_eq_false (by linarith)] at this

variable [Libm]

/-! ### Angles -/

omit [Libm] in
theorem tenth_abs : |Real.pi / 10| ≤ 0.37 := by
  have h1 := Real.pi_lt_d4
  have h2 := Real.pi_pos
  rw [abs_of_pos (by positivity)]
  norm_num at h1 ⊢
  linarith

theorem near_quarter : Near (1 / 2 ^ 51) (roundRat false (1 / 2 * goPi)) (Real.pi / 2) := by
  have h := goPi_near
  have hpi := Real.pi_lt_d2
  have hpi0 := Real.pi_pos
  have hd : |((1 / 2 * goPi : ℚ) : ℝ) - Real.pi / 2| ≤ 1 / 10 ^ 19 := by
    have e : ((1 / 2 * goPi : ℚ) : ℝ) - Real.pi / 2 = (((goPi : ℚ) : ℝ) - Real.pi) / 2 := by push_cast; ring
    rw [e, abs_div, abs_two]
    linarith [abs_nonneg (((goPi : ℚ) : ℝ) - Real.pi)]
  have hb : |Real.pi / 2| + 1 / 10 ^ 19 ≤ 2 ^ 1 := by
    rw [abs_of_pos (by positivity)]
    norm_num at hpi ⊢
    linarith
  exact (near_round (roundRat_nearest false (pow_bound (E := 1) (by norm_num) (abs_le_of_near hd hb))) hd (by norm_num) hb).mono (by norm_num)

theorem near_tenth : Near (1 / 2 ^ 52) (roundRat false (1 / 2 * goPi) /. GoFloat.ofInt 5 : F64) (Real.pi / 10) := by
  have hs := tenth_abs
  have h5 := near_ofInt (n := 5) (by norm_num)
  have e : Real.pi / 2 / (5 : ℕ) = Real.pi / 10 := by push_cast; ring
  have := near_div near_quarter h5 (E := 0) (by norm_num) (by norm_num) (by
    rw [e]
    norm_num at hs ⊢
    linarith)
  rw [e] at this
  push_cast at this
  exact this.mono (by norm_num)

/-- The angle after `i` of five steps. -/
theorem near_fifths {θ : F64} {η : ℝ} (h : Near (1 / 2 ^ 50) θ η) (hη : |η| ≤ 3.2) {i : Nat} (hi : i ≤ 5) :
    Near (1 / 2 ^ 47) (θ +. roundRat false (1 / 2 * goPi) /. GoFloat.ofInt 5 *. GoFloat.ofInt (i : ℤ)) (η + Real.pi / 10 * i) ∧
      |η + Real.pi / 10 * i| ≤ 7 := by
  have hs := tenth_abs
  have hi' : (i : ℝ) ≤ 5 := by exact_mod_cast hi
  have hi0 : (0 : ℝ) ≤ i := by positivity
  have hm : |Real.pi / 10 * i| ≤ 1.85 := by
    rw [abs_mul, abs_of_nonneg hi0]
    norm_num at hs ⊢
    nlinarith [abs_nonneg (Real.pi / 10)]
  have n1 := near_mul near_tenth (near_ofInt (n := i) (by omega)) (E := 1) (by norm_num) (by
    rw [abs_of_nonneg hi0]
    have : (1 : ℝ) / 2 ^ 52 * i ≤ 1 / 2 ^ 52 * 5 := mul_le_mul_of_nonneg_left hi' (by positivity)
    norm_num at hm this ⊢
    linarith)
  have n1' : Near (1 / 2 ^ 49) (roundRat false (1 / 2 * goPi) /. GoFloat.ofInt 5 *. GoFloat.ofInt (i : ℤ) : F64) (Real.pi / 10 * i) := n1.mono (by
    rw [abs_of_nonneg hi0]
    have : (1 : ℝ) / 2 ^ 52 * i ≤ 1 / 2 ^ 52 * 5 := mul_le_mul_of_nonneg_left hi' (by positivity)
    norm_num at this ⊢
    linarith)
  have hsum := abs_add_le η (Real.pi / 10 * i)
  refine ⟨(near_add h n1' (E := 3) (by norm_num) ?_).mono (by norm_num), ?_⟩
  · norm_num at hη hm hsum ⊢
    linarith
  · norm_num at hη hm hsum ⊢
    linarith

/-- The tangent of the grid for a computed angle. -/
theorem ringTan_near (hL : Accurate) {R : ℤ} (h0 : 0 ≤ R) (h1 : R ≤ 2 ^ 26) {θ : F64} {φ : ℝ} (h : Near (1 / 2 ^ 47) θ φ) (hφ : |φ| ≤ 7) :
    NearTangent R φ (ringTan (GoFloat.ofInt R) θ) := by
  have r0 : (0 : ℝ) ≤ R := by exact_mod_cast h0
  have r1 : (R : ℝ) ≤ 2 ^ 26 := by exact_mod_cast h1
  have nR : Near 0 (GoFloat.ofInt R : F64) (R : ℝ) := by
    have := near_is (is_ofInt (n := R) (by rw [abs_of_nonneg h0]; omega))
    simpa using this
  have k : ∀ {x : F64} {c : ℝ}, |c| ≤ 1 → Near (1 / 2 ^ 50 + 1 / 2 ^ 47) x c →
      |((GoFloat.toI32 (GoFloat.ofInt R *. x) : ℤ) : ℝ) - R * c| ≤ 17 / 16 ∧ |(R : ℝ) * c| ≤ 2 ^ 26 := by
    intro x c hc hx
    have t0 : |(R : ℝ) * c| ≤ 2 ^ 26 := by
      rw [abs_mul, abs_of_nonneg r0]
      nlinarith [abs_nonneg c]
    have t1 : (R : ℝ) * (1 / 2 ^ 50 + 1 / 2 ^ 47) ≤ 2 ^ 26 * (1 / 2 ^ 50 + 1 / 2 ^ 47) := mul_le_mul_of_nonneg_right r1 (by positivity)
    have n := near_mul nR hx (E := 27) (by norm_num) (by
      rw [abs_of_nonneg r0, zero_mul, zero_mul]
      norm_num at t0 t1 ⊢
      linarith)
    rw [abs_of_nonneg r0, zero_mul, zero_mul] at n
    have n' : Near (1 / 16) (GoFloat.ofInt R *. x) ((R : ℝ) * c) := n.mono (by norm_num at t1 ⊢; linarith)
    have := near_toI32 n' (by
      have e : (2 : ℝ) ^ 31 = 32 * 2 ^ 26 := by norm_num
      have e1 : (1 : ℝ) ≤ 2 ^ 26 := by norm_num
      linarith)
    exact ⟨by linarith, t0⟩
  obtain ⟨s1, s2⟩ := k (Real.abs_sin_le_one φ) (near_sin hL h (by norm_num at hφ ⊢; linarith))
  obtain ⟨c1, -⟩ := k (Real.abs_cos_le_one φ) (near_cos hL h (by norm_num at hφ ⊢; linarith))
  have hw : wrap32 (-(GoFloat.toI32 (GoFloat.ofInt R *. GoFloat.sin θ))) = -(GoFloat.toI32 (GoFloat.ofInt R *. GoFloat.sin θ)) := by
    have : |((GoFloat.toI32 (GoFloat.ofInt R *. GoFloat.sin θ) : ℤ) : ℝ)| ≤ 2 ^ 27 := by
      have := abs_sub_abs_le_abs_sub ((GoFloat.toI32 (GoFloat.ofInt R *. GoFloat.sin θ) : ℤ) : ℝ) (R * Real.sin φ)
      have e : (2 : ℝ) ^ 27 = 2 ^ 26 + 2 ^ 26 := by norm_num
      have e1 : (2 : ℝ) ≤ 2 ^ 26 := by norm_num
      linarith
    have : |GoFloat.toI32 (GoFloat.ofInt R *. GoFloat.sin θ)| ≤ 2 ^ 27 := by exact_mod_cast this
    have := abs_le.1 this
    apply wrap32_id <;> omega
  constructor
  · show |((wrap32 (-(GoFloat.toI32 (GoFloat.ofInt R *. GoFloat.sin θ))) : ℤ) : ℝ) + _| ≤ _
    rw [hw]
    push_cast
    rw [← abs_neg] at s1
    refine (le_of_eq ?_).trans s1
    congr 1
    ring
  · exact c1

variable {m : Matrix2D F64} {a : Pt} {R : ℤ} {X Y ρ : ℝ}

/-- A corner in binary64. -/
theorem gap_near (hL : Accurate) (h : NearCircle m a R X Y ρ) (hR0 : 0 < R) {fuel : Nat} {t l : Pt} {θ₁ θ₂ : F64} {η : ℝ}
    (ht : |t.x| ≤ 2 ^ 26 ∧ |t.y| ≤ 2 ^ 26) (hl : |l.x| ≤ 2 ^ 26 ∧ |l.y| ≤ 2 ^ 26)
    (h1 : Libm.atan2 (GoFloat.ofInt t.y) (GoFloat.ofInt t.x) = θ₁) (h2 : raise fuel (Libm.atan2 (GoFloat.ofInt l.y) (GoFloat.ofInt l.x)) θ₁ = some θ₂)
    (hd : sub θ₂ θ₁ = roundRat false (1 / 2 * goPi)) (hη : Near (1 / 2 ^ 50) θ₁ η) (hb : |η| ≤ 3.2)
    (hR : (t.x = 0 ∧ t.y ^ 2 = R ^ 2) ∨ (t.y = 0 ∧ t.x ^ 2 = R ^ 2)) (hx : (l.x : ℝ) = R * Real.cos (η + Real.pi / 2))
    (hy : (l.y : ℝ) = R * Real.sin (η + Real.pi / 2)) :
    ∃ g, roundGap fuel m a t l = some g ∧ List.Forall₂ (OpWithin (5 / 64)) g (cornerOps X Y ρ η) := by
  have ax := abs_le.1 h.ax
  have ay := abs_le.1 h.ay
  have at' : a.add t = ⟨a.x + t.x, a.y + t.y⟩ := by
    have := abs_le.1 ht.1
    have := abs_le.1 ht.2
    unfold Pt.add
    rw [wrap32_id (by omega) (by omega), wrap32_id (by omega) (by omega)]
  have al' : a.add l = ⟨a.x + l.x, a.y + l.y⟩ := by
    have := abs_le.1 hl.1
    have := abs_le.1 hl.2
    unfold Pt.add
    rw [wrap32_id (by omega) (by omega), wrap32_id (by omega) (by omega)]
  have w : ∀ {u v : ℤ}, |v| ≤ 2 ^ 26 → wrap32 (u + v - u) = v := by
    intro u v hv
    have := abs_le.1 hv
    rw [add_sub_cancel_left, wrap32_id (by omega) (by omega)]
  have hd' : θ₂ -. θ₁ = roundRat false (1 / 2 * goPi) := hd
  have p8 : (GoFloat.piMul (1 / 8) : F64) = roundRat false (1 / 8 * goPi) := hL.piMul (1 / 8)
  apply gap_within h (θ₁ := θ₁) (θ₂ := θ₂)
  · rw [at', w ht.1, w ht.2]
    exact h1
  · rw [al', w hl.1, w hl.2]
    exact h2
  · rw [hd', p8]
    exact (by decide +kernel : toSigned 63 (div (abs (roundRat false (1 / 2 * goPi))) (roundRat false (1 / 8 * goPi))) = 4)
  · rw [hd']
    obtain ⟨c1, c2⟩ := corner_alpha
    unfold alphaOf at c1 c2
    have n1 := near_arms hL (tenth_abs.trans (by norm_num)) near_tenth
    generalize Real.sin (Real.pi / 10) * (Real.sqrt (4 + 3 * Real.tan (Real.pi / 10 / 2) * Real.tan (Real.pi / 10 / 2)) - 1) = v at *
    have n2 := num_near (q := 64 / 3) (E := 5) (by norm_num) (by norm_num)
    have e : ((64 / 3 : ℚ) : ℝ) = 64 / 3 := by norm_num
    rw [e] at n2
    have v0 : 0 < v := by norm_num at c1; linarith
    have v1 : v < 1 := by norm_num at c2; linarith
    have n3 := near_mul n1 n2 (E := 4) (by norm_num) (by
      rw [abs_of_pos v0, abs_of_pos (by positivity), abs_of_pos (by norm_num : (0 : ℝ) < 64 / 3)]
      norm_num at c2 v1 ⊢
      linarith)
    have n4 := n3.mono (d' := 1 / 100) (by
      rw [abs_of_pos v0, abs_of_pos (by norm_num : (0 : ℝ) < 64 / 3)]
      norm_num at v1 ⊢
      linarith)
    obtain ⟨q, q1, q2⟩ := n4
    rw [toI32_eq q1]
    obtain ⟨q3, q4⟩ := abs_le.1 q2
    apply trunc_six
    · norm_num at *; linarith
    · norm_num at *; linarith
  · rw [at']
    have e : Pt.sub ⟨a.x + t.x, a.y + t.y⟩ a = t := by
      unfold Pt.sub
      simp only [w ht.1, w ht.2]
    rw [e]
    unfold length
    obtain ⟨N, hN⟩ : ∃ N : ℕ, R = N := ⟨R.toNat, by omega⟩
    have hN0 : 0 < N := by omega
    have hN1 : N ≤ 2 ^ 26 := by have := h.R1; omega
    have sqR : ∀ {v : ℤ}, |v| ≤ 2 ^ 26 → v ^ 2 = R ^ 2 → Is ((GoFloat.ofInt v : F64) *. GoFloat.ofInt v) ((N : ℚ) * N) := by
      intro v hv hvR
      have i := is_ofInt (n := v) (by omega)
      refine is_mul' i i ?_ ?_
      · have : ((v : ℚ)) ^ 2 = (N : ℚ) ^ 2 := by
          rw [hN] at hvR
          exact_mod_cast hvR
        linarith
      · have : N * N < 2 ^ 53 := by nlinarith
        exact_mod_cast rep_nat this
    have z : Is ((GoFloat.ofInt 0 : F64) *. GoFloat.ofInt 0) 0 := is_mul' (is_ofInt (n := 0) (by norm_num)) (is_ofInt (n := 0) (by norm_num)) (by norm_num) rep_zero
    have hsum : Is ((GoFloat.ofInt t.x : F64) *. GoFloat.ofInt t.x +. GoFloat.ofInt t.y *. GoFloat.ofInt t.y) ((N : ℚ) * N) := by
      rcases hR with ⟨h3, h4⟩ | ⟨h3, h4⟩
      · have i := sqR ht.2 h4
        rw [h3]
        exact is_add' z i (zero_add _) (is_rep i)
      · have i := sqR ht.1 h4
        rw [h3]
        exact is_add' i z (add_zero _) (is_rep i)
    have hroot := sqrt_square hN0 (by omega) hsum
    have := h.R1
    rw [hN] at this ⊢
    exact toI32_is (n := (N : ℤ)) (by exact_mod_cast hroot) (by omega) (by omega)
  · exact ringTan_near hL h.R0 h.R1 (hη.mono (by norm_num)) (by norm_num at hb ⊢; linarith)
  · intro i _ hi
    rw [hd']
    obtain ⟨a1, a2⟩ := near_fifths hη hb hi
    exact ringTan_near hL h.R0 h.R1 a1 a2
  · constructor
    · push_cast
      rw [hy]
      norm_num
    · rw [hx]
      norm_num

/-! ### The four corners -/

theorem raise_same {fuel : Nat} {t l : F64} (h : GoFloat.lt t l = false) : raise fuel t l = some t := by
  rw [raise.eq_def]
  simp [h]

theorem corners_near (hL : Accurate) (hA : AtanAxes) (h : NearCircle m a R X Y ρ) (hR : 0 < R) {fuel : Nat} (hf : 1 ≤ fuel) :
    (∃ g, roundGap fuel m a ⟨0, -R⟩ ⟨R, 0⟩ = some g ∧ List.Forall₂ (OpWithin (5 / 64)) g (cornerOps X Y ρ (-(Real.pi / 2)))) ∧
    (∃ g, roundGap fuel m a ⟨R, 0⟩ ⟨0, R⟩ = some g ∧ List.Forall₂ (OpWithin (5 / 64)) g (cornerOps X Y ρ 0)) ∧
    (∃ g, roundGap fuel m a ⟨0, R⟩ ⟨-R, 0⟩ = some g ∧ List.Forall₂ (OpWithin (5 / 64)) g (cornerOps X Y ρ (Real.pi / 2))) ∧
    (∃ g, roundGap fuel m a ⟨-R, 0⟩ ⟨0, -R⟩ = some g ∧ List.Forall₂ (OpWithin (5 / 64)) g (cornerOps X Y ρ Real.pi)) := by
  have hpi := Real.pi_pos
  have hpu := Real.pi_lt_d2
  have b0 : |(0 : ℤ)| ≤ 2 ^ 26 := by norm_num
  have b1 : |R| ≤ 2 ^ 26 := by rw [abs_of_pos hR]; exact h.R1
  have b2 : |-R| ≤ 2 ^ 26 := by rw [abs_neg]; exact b1
  have e1 : Real.pi / 2 + Real.pi / 2 = Real.pi := by ring
  have e2 : Real.sin (Real.pi + Real.pi / 2) = -1 := by rw [Real.sin_add]; simp
  have e3 : Real.cos (Real.pi + Real.pi / 2) = 0 := by rw [Real.cos_add]; simp
  have iR : Is (GoFloat.ofInt R : F64) R := is_ofInt (by omega)
  have iN : Is (GoFloat.ofInt (-R) : F64) ((-R : ℤ) : ℚ) := is_ofInt (by omega)
  have R0 : (0 : ℚ) < R := by exact_mod_cast hR
  have z : (GoFloat.ofInt 0 : F64) = .fin false 0 (-1074) := (by decide +kernel : roundRat false ((0 : ℤ) : ℚ) = .fin false 0 (-1074))
  have up : Libm.atan2 (GoFloat.ofInt (-R)) (GoFloat.ofInt 0) = neg (roundRat false (1 / 2 * goPi)) := by
    rw [z, hA.up _ _ _ _ iN (by push_cast; linarith), hL.piMul]
  have right : Libm.atan2 (GoFloat.ofInt 0) (GoFloat.ofInt R) = .fin false 0 (-1074) := by
    rw [z, hL.atan2_zero _ _ _ (sign_pos iR R0)]
    obtain ⟨s, m, e, h1, -⟩ := iR
    rw [h1]
    simp
  have down : Libm.atan2 (GoFloat.ofInt R) (GoFloat.ofInt 0) = roundRat false (1 / 2 * goPi) := by
    rw [z, hA.down _ _ _ _ iR R0, hL.piMul]
  have left : Libm.atan2 (GoFloat.ofInt 0) (GoFloat.ofInt (-R)) = roundRat false (1 * goPi) := by
    rw [z, hA.left _ _ _ iN (by push_cast; linarith), hL.piMul]
  have nz : Near (1 / 2 ^ 50) (.fin false 0 (-1074)) 0 := ⟨0, ⟨_, _, _, rfl, by norm_num, by simp⟩, by norm_num⟩
  have nq : Near (1 / 2 ^ 50) (roundRat false (1 / 2 * goPi)) (Real.pi / 2) := near_quarter.mono (by norm_num)
  have np : Near (1 / 2 ^ 50) (roundRat false (1 * goPi)) Real.pi := by
    have := near_pi hL
    have e : (GoFloat.piMul 1 : F64) = roundRat false (1 * goPi) := hL.piMul 1
    rw [e] at this
    exact this.mono (by norm_num)
  refine ⟨gap_near hL h hR ⟨b0, b2⟩ ⟨b1, b0⟩ up (θ₂ := .fin false 0 (-1074)) ?_ (by decide +kernel) (near_neg nq) ?_ (.inl ⟨rfl, by simp⟩) (by simp) (by simp),
    gap_near hL h hR ⟨b1, b0⟩ ⟨b0, b1⟩ right (θ₂ := roundRat false (1 / 2 * goPi)) ?_ (by decide +kernel) nz ?_ (.inr ⟨rfl, by simp⟩) (by simp) (by simp),
    gap_near hL h hR ⟨b0, b1⟩ ⟨b2, b0⟩ down (θ₂ := roundRat false (1 * goPi)) ?_ (by decide +kernel) nq ?_ (.inl ⟨rfl, by simp⟩) (by simp [e1]) (by simp [e1]),
    gap_near hL h hR ⟨b2, b0⟩ ⟨b0, b2⟩ left (θ₂ := add (neg (roundRat false (1 / 2 * goPi))) (roundRat false (2 * goPi))) ?_ (by decide +kernel) np ?_
      (.inr ⟨rfl, by simp⟩) (by simp [e3]) (by simp [e2])⟩
  · rw [right]
    exact raise_same (by show lt _ _ = false; decide +kernel)
  · rw [abs_neg, abs_of_pos (by positivity)]
    norm_num at hpu ⊢
    linarith
  · rw [down]
    exact raise_same (by show lt _ _ = false; decide +kernel)
  · norm_num
  · rw [left]
    exact raise_same (by show lt _ _ = false; decide +kernel)
  · rw [abs_of_pos (by positivity)]
    norm_num at hpu ⊢
    linarith
  · rw [up]
    obtain ⟨f, rfl⟩ : ∃ f, fuel = f + 1 := ⟨fuel - 1, by omega⟩
    rw [raise.eq_def]
    have c1 : GoFloat.lt (neg (roundRat false (1 / 2 * goPi))) (roundRat false (1 * goPi)) = true := by
      show lt _ _ = true
      decide +kernel
    have p2 : (GoFloat.piMul 2 : F64) = roundRat false (2 * goPi) := hL.piMul 2
    simp only [c1, if_true, p2]
    exact raise_same (by show lt (add _ _) _ = false; decide +kernel)
  · rw [abs_of_pos (by positivity)]
    norm_num at hpu ⊢
    linarith

end GoSvg.F64
