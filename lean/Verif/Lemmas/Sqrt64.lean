import Verif.Lemmas.Near

/-! The square root of binary64. -/

namespace GoSvg.F64

open Spec

/-- The integer square root is the integer square root. -/
theorem natSqrt_spec (n : Nat) : ∀ (b r : Nat), r * r ≤ n → n < (r + 2 ^ (b + 1)) * (r + 2 ^ (b + 1)) →
    natSqrt n b r * natSqrt n b r ≤ n ∧ n < (natSqrt n b r + 1) * (natSqrt n b r + 1)
  | 0, r, h1, h2 => by
    unfold natSqrt
    split
    · next h =>
      refine ⟨h, ?_⟩
      have e : r + 2 ^ (0 + 1) = r + 1 + 1 := by norm_num
      rwa [e] at h2
    · next h => exact ⟨h1, by omega⟩
  | b + 1, r, h1, h2 => by
    unfold natSqrt
    have e : (2 : Nat) ^ (b + 1 + 1) = 2 ^ (b + 1) + 2 ^ (b + 1) := by rw [pow_succ]; ring
    split
    · next h => exact natSqrt_spec n b _ h (by rwa [e, ← Nat.add_assoc] at h2)
    · next h => exact natSqrt_spec n b _ h1 (by omega)

theorem emod_half {e : ℤ} {k : Nat} (hk : k = if e % 2 = 0 then 120 else 121) : 2 * ((e - k) / 2) = e - k := by
  split at hk <;> subst hk <;> omega

/-- The square root of a positive number is the nearest number to a rational that is within a `2^60`th of the exact square root. -/
theorem sqrt_nearest {x : F64} {p : ℚ} (hx : Is x p) (hp : 0 < p) :
    ∃ q : ℚ, 0 ≤ q ∧ |(q : ℝ) - Real.sqrt p| ≤ Real.sqrt p / 2 ^ 60 ∧ (|q| < 2 ^ (1024 : Int) - 2 ^ (970 : Int) → Nearest (sqrt x) q) := by
  obtain ⟨s, m, e, rfl, ⟨hm, he1, he2⟩, hv⟩ := hx
  have hs : s = false := by
    cases s
    · rfl
    · simp only [if_true] at hv
      have : (0 : ℚ) ≤ m * 2 ^ e := by positivity
      linarith
  subst hs
  simp only [Bool.false_eq_true, if_false] at hv
  have hm0 : m ≠ 0 := by
    rintro rfl
    simp at hv
    linarith
  unfold sqrt
  dsimp only
  rw [if_neg hm0, if_neg (by simp)]
  obtain ⟨k, hk⟩ : ∃ k : Nat, k = if e % 2 = 0 then 120 else 121 := ⟨_, rfl⟩
  rw [← hk]
  have hk2 : 120 ≤ k ∧ k ≤ 121 := by split at hk <;> omega
  have hE := emod_half hk
  obtain ⟨n, hn⟩ : ∃ n, n = m * 2 ^ k := ⟨_, rfl⟩
  rw [← hn]
  have hnlt : n < 2 ^ 174 := by
    rw [hn]
    calc m * 2 ^ k < 2 ^ 53 * 2 ^ k := Nat.mul_lt_mul_of_pos_right hm (by positivity)
      _ ≤ 2 ^ 53 * 2 ^ 121 := Nat.mul_le_mul_left _ (Nat.pow_le_pow_right (by norm_num) hk2.2)
      _ = 2 ^ 174 := by norm_num
  have hnge : 2 ^ 120 ≤ n := by
    rw [hn]
    calc 2 ^ 120 ≤ 2 ^ k := Nat.pow_le_pow_right (by norm_num) hk2.1
      _ ≤ m * 2 ^ k := Nat.le_mul_of_pos_left _ (by omega)
  obtain ⟨r1, r2⟩ := natSqrt_spec n 100 0 (by omega) (by
    refine hnlt.trans_le ?_
    norm_num)
  generalize natSqrt n 100 0 = r at *
  obtain ⟨E, hEd⟩ : ∃ E : ℤ, E = (e - k) / 2 := ⟨_, rfl⟩
  rw [← hEd] at hE ⊢
  rw [twoPow_eq]
  have hpos : (0 : ℝ) < 2 ^ E := by positivity
  have hsq : Real.sqrt p = Real.sqrt n * 2 ^ E := by
    have e1 : (p : ℝ) = n * (2 ^ E * 2 ^ E) := by
      rw [← hv, hn]
      push_cast
      rw [← zpow_add₀ (by norm_num : (2 : ℝ) ≠ 0), ← two_mul, hE, mul_assoc, ← zpow_natCast, ← zpow_add₀ (by norm_num : (2 : ℝ) ≠ 0)]
      congr 2
      omega
    rw [e1, Real.sqrt_mul (by positivity), Real.sqrt_mul_self hpos.le]
  have b1 : (r : ℝ) ≤ Real.sqrt n := Real.le_sqrt_of_sq_le (by rw [pow_two]; exact_mod_cast r1)
  have b2 : Real.sqrt n < r + 1 := by
    rw [Real.sqrt_lt' (by positivity), pow_two]
    exact_mod_cast r2
  have b3 : (2 : ℝ) ^ 60 ≤ Real.sqrt n := Real.le_sqrt_of_sq_le (by
    have : ((2 ^ 120 : ℕ) : ℝ) ≤ n := by exact_mod_cast hnge
    push_cast at this
    norm_num at this ⊢
    exact this)
  obtain ⟨q, hq⟩ : ∃ q : ℚ, q = if r * r = n then (r : ℚ) else (r : ℚ) + 1 / 2 := ⟨_, rfl⟩
  rw [← hq]
  have hq0 : 0 ≤ q := by rw [hq]; split <;> positivity
  have hqe : |(q : ℝ) - Real.sqrt n| ≤ 1 := by
    rw [hq]
    split
    · next h =>
      have : Real.sqrt n = r := by
        rw [← h]
        push_cast
        exact Real.sqrt_mul_self (by positivity)
      rw [this]
      simp
    · rw [abs_le]
      push_cast
      constructor <;> linarith
  refine ⟨q * 2 ^ E, by positivity, ?_, fun h => ?_⟩
  · rw [hsq]
    push_cast
    rw [← sub_mul, abs_mul, abs_of_pos hpos, mul_div_right_comm]
    refine mul_le_mul_of_nonneg_right (hqe.trans ?_) hpos.le
    rw [le_div_iff₀ (by positivity)]
    linarith
  · have h0 : 0 ≤ q * 2 ^ E := by positivity
    have hp0 : 0 < q * 2 ^ E := by
      refine mul_pos ?_ (by positivity)
      have : (1 : ℝ) < Real.sqrt n := lt_of_lt_of_le (by norm_num) b3
      have : (0 : ℝ) < q := by linarith [(abs_le.1 hqe).1]
      exact_mod_cast this
    have := roundRat_nearest false h
    rwa [roundRat, if_neg hp0.ne', if_neg (by linarith), decide_eq_false (by linarith)] at this

/-- The square root of a number close to `r ≥ 1/4`. -/
theorem near_sqrt [Libm] {d : ℝ} {x : F64} {r : ℝ} (h : Near d x r) (hr : 1 / 4 ≤ r) (hd : d < r) {E : Nat} (hE : E ≤ 52)
    (hb : Real.sqrt r + 2 * d ≤ 2 ^ E / 2) : Near (2 * d + 2 ^ E / 2 ^ 53) (GoFloat.sqrt x) (Real.sqrt r) := by
  obtain ⟨p, h1, h2⟩ := h
  have hp : (0 : ℝ) < p := by linarith [(abs_le.1 h2).1]
  obtain ⟨q, q0, q1, q2⟩ := sqrt_nearest h1 (by exact_mod_cast hp)
  have hd0 : 0 ≤ d := (abs_nonneg _).trans h2
  have hsr : 1 / 2 ≤ Real.sqrt r := Real.le_sqrt_of_sq_le (by norm_num; linarith)
  have k1 : |Real.sqrt p - Real.sqrt r| ≤ 2 * d := by
    have e1 : (Real.sqrt p - Real.sqrt r) * (Real.sqrt p + Real.sqrt r) = p - r := by
      have a := Real.mul_self_sqrt hp.le
      have b := Real.mul_self_sqrt (by linarith : 0 ≤ r)
      linear_combination a - b
    have e2 : |Real.sqrt p - Real.sqrt r| * (Real.sqrt p + Real.sqrt r) ≤ d := by
      rw [← e1, abs_mul, abs_of_pos (by linarith [Real.sqrt_nonneg (p : ℝ)] : 0 < Real.sqrt p + Real.sqrt r)] at h2
      exact h2
    have := mul_le_mul_of_nonneg_left (by linarith [Real.sqrt_nonneg (p : ℝ)] : 1 / 2 ≤ Real.sqrt p + Real.sqrt r)
      (abs_nonneg (Real.sqrt p - Real.sqrt r))
    linarith
  have k0 : Real.sqrt p ≤ 2 ^ E / 2 := by linarith [(abs_le.1 k1).2]
  have k2 : |(q : ℝ) - Real.sqrt r| ≤ 2 * d + 2 ^ E / 2 ^ 61 := by
    have := abs_sub_le (q : ℝ) (Real.sqrt p) (Real.sqrt r)
    have k3 := div_le_div_of_nonneg_right k0 (by positivity : (0 : ℝ) ≤ 2 ^ 60)
    have e1 : (2 : ℝ) ^ E / 2 / 2 ^ 60 = 2 ^ E / 2 ^ 61 := by ring
    linarith
  have k5 : |Real.sqrt r| + (2 * d + 2 ^ E / 2 ^ 61) ≤ 2 ^ E := by
    rw [abs_of_nonneg (Real.sqrt_nonneg r)]
    have : (2 : ℝ) ^ E / 2 ^ 61 ≤ 2 ^ E / 2 := div_le_div_of_nonneg_left (by positivity) (by norm_num) (by norm_num)
    linarith
  have := near_round (q2 (pow_bound hE (abs_le_of_near k2 k5))) k2 hE k5
  refine this.mono ?_
  have : (2 : ℝ) ^ E / 2 ^ 61 ≤ 2 ^ E / 2 ^ 54 := div_le_div_of_nonneg_left (by positivity) (by norm_num) (by norm_num)
  have e2 : (2 : ℝ) ^ E / 2 ^ 53 = 2 ^ E / 2 ^ 54 + 2 ^ E / 2 ^ 54 := by ring
  linarith

end GoSvg.F64
