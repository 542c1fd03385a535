import Verif.Lemmas.ArcLoop64
import Verif.Lemmas.RoundRect64
import Verif.Props.Arcs

/-! The angles of a circular arc in binary64. -/

namespace GoSvg.F64

open Spec

section Compare

variable {x y : F64} {p q : ℚ}

theorem is_lt (hx : Is x p) (hy : Is y q) : lt x y = true ↔ p < q := by
  have h1 := is_val hx
  have h2 := is_val hy
  obtain ⟨s, m, e, rfl, -⟩ := hx
  obtain ⟨t, n, f, rfl, -⟩ := hy
  show decide _ = true ↔ _
  rw [decide_eq_true_iff, h1, h2]

theorem is_eq (hx : Is x p) (hy : Is y q) : eq x y = true ↔ p = q := by
  have h1 := is_val hx
  have h2 := is_val hy
  obtain ⟨s, m, e, rfl, -⟩ := hx
  obtain ⟨t, n, f, rfl, -⟩ := hy
  show decide _ = true ↔ _
  rw [decide_eq_true_iff, h1, h2]

theorem is_le (hx : Is x p) (hy : Is y q) : le x y = true ↔ p ≤ q := by
  unfold le
  rw [Bool.or_eq_true, is_lt hx hy, is_eq hx hy, le_iff_lt_or_eq]

theorem is_abs_val (hx : Is x p) : Is (abs x) |p| := by
  obtain ⟨s, m, e, rfl, hv, rfl⟩ := hx
  refine ⟨false, m, e, rfl, hv, ?_⟩
  have : (0 : ℚ) ≤ m * 2 ^ e := by positivity
  cases s
  · simp only [Bool.false_eq_true, if_false]; exact (abs_of_nonneg this).symm
  · simp only [if_true, abs_neg, Bool.false_eq_true, if_false]; exact (abs_of_nonneg this).symm

end Compare

variable [Libm]

/-! ### Where a point is seen -/

section Eta
variable {e : Nat} {cx cy r : F64} {X Y ρ : ℝ}

/-- The parameter the code computes for a point of the circle. -/
theorem eta_near (hA : Angular) (h : Circ e cx cy r X Y ρ) (he : 7 ≤ e) {dx dy z : F64} {a b : ℝ} (hab : a ^ 2 + b ^ 2 = ρ ^ 2)
    (hdx : Near (1.15 * (ρ / 2 ^ 18)) dx a) (hdy : Near (1.15 * (ρ / 2 ^ 18)) dy b) (hz : Is z 0) :
    ∃ A : ℝ, |A| ≤ Real.pi ∧
      Near (1 / 2 ^ 50) (GoFloat.atan2 (GoFloat.sin (GoFloat.atan2 dy dx -. z) /. r) (GoFloat.cos (GoFloat.atan2 dy dx -. z) /. r)) A ∧
      |Real.cos A - a / ρ| ≤ 2.9 / 2 ^ 18 ∧ |Real.sin A - b / ρ| ≤ 2.9 / 2 ^ 18 := by
  have p0 := h.pos
  have hpi := Real.pi_pos
  have hpi4 := Real.pi_lt_d4
  have hρ1 : 1 ≤ ρ := by
    have h1 := h.big
    have : (2 : ℝ) ^ 7 ≤ 2 ^ e := pow_le_pow_right₀ (by norm_num) he
    linarith
  have hρ2 : ρ ≤ 2 ^ 22 := h.small.trans (pow_le_pow_right₀ (by norm_num) h.he)
  -- the first arc tangent
  obtain ⟨p, p1, p2⟩ := hdx
  obtain ⟨q, q1, q2⟩ := hdy
  have hne : (p, q) ≠ (0, 0) := by
    intro h0
    rw [Prod.mk.injEq] at h0
    rw [h0.1] at p2
    rw [h0.2] at q2
    simp only [Rat.cast_zero, zero_sub, abs_neg] at p2 q2
    have s1 : a ^ 2 ≤ (1.15 * (ρ / 2 ^ 18)) ^ 2 := by rw [← sq_abs]; gcongr
    have s2 : b ^ 2 ≤ (1.15 * (ρ / 2 ^ 18)) ^ 2 := by rw [← sq_abs]; gcongr
    have : (1.15 * (ρ / 2 ^ 18)) ^ 2 ≤ ρ ^ 2 / 4 := by
      have e1 : (1.15 * (ρ / 2 ^ 18)) ^ 2 = ρ ^ 2 * (1.15 / 2 ^ 18) ^ 2 := by ring
      rw [e1]
      norm_num
      nlinarith [sq_nonneg ρ]
    nlinarith [sq_nonneg ρ]
  obtain ⟨A, A1, ⟨v, v1, v2⟩, A3, A4⟩ := hA.atan2 dy dx q p q1 p1 hne
  obtain ⟨c1, c2⟩ := direction_close p0.le hab p2 q2 A3 A4
  have n1 : Near (1 / 2 ^ 50) (GoFloat.atan2 dy dx) A := ⟨v, v1, v2⟩
  have n2 := near_sub_zero n1 hz
  have hsin : Near (1 / 2 ^ 49) _ _ := (near_sin' hA n2 (by norm_num at *; linarith)).mono (by norm_num)
  have hcos : Near (1 / 2 ^ 49) _ _ := (near_cos' hA n2 (by norm_num at *; linarith)).mono (by norm_num)
  generalize GoFloat.sin (GoFloat.atan2 dy dx -. z) = s at *
  generalize GoFloat.cos (GoFloat.atan2 dy dx -. z) = c at *
  -- the second one
  have key : ∀ {x : F64} {C : ℝ}, Near (1 / 2 ^ 49) x C → |C| ≤ 1 → Near (1 / 2 ^ 27 / ρ) (x /. r) (C / ρ) := by
    intro x C hx hC
    have hq : |C / ρ| ≤ 1 / ρ := by rw [abs_div, abs_of_pos p0]; exact div_le_div_of_nonneg_right hC p0.le
    have hq1 : 1 / ρ ≤ 1 := by rw [div_le_one p0]; exact hρ1
    have t1 : |C / ρ| * (1 / 2 ^ 10 * (ρ / 2 ^ 18)) ≤ 1 / 2 ^ 28 := by
      have : |C / ρ| * (1 / 2 ^ 10 * (ρ / 2 ^ 18)) ≤ 1 / ρ * (1 / 2 ^ 10 * (ρ / 2 ^ 18)) := mul_le_mul_of_nonneg_right hq (by positivity)
      refine this.trans (le_of_eq ?_)
      field_simp
    have t2 : ρ * (1 - 1 / 2 ^ 28) ≤ |ρ| - 1 / 2 ^ 10 * (ρ / 2 ^ 18) := by
      rw [abs_of_pos p0]
      apply le_of_eq
      ring
    have t3 : (1 / 2 ^ 49 + |C / ρ| * (1 / 2 ^ 10 * (ρ / 2 ^ 18))) / (|ρ| - 1 / 2 ^ 10 * (ρ / 2 ^ 18)) ≤ 1.1 / 2 ^ 28 / ρ := by
      rw [div_le_div_iff₀ (by rw [abs_of_pos p0]; norm_num; linarith) p0]
      have : (1 / 2 ^ 49 + |C / ρ| * (1 / 2 ^ 10 * (ρ / 2 ^ 18))) * ρ ≤ (1 / 2 ^ 49 + 1 / 2 ^ 28) * ρ := mul_le_mul_of_nonneg_right (by linarith) p0.le
      refine this.trans ?_
      have := mul_le_mul_of_nonneg_left t2 (by norm_num : (0 : ℝ) ≤ 1.1 / 2 ^ 28)
      norm_num at this ⊢
      nlinarith
    have t4 : (1 : ℝ) / 2 ^ 52 ≤ 1 / 2 ^ 30 / ρ := by
      rw [div_le_div_iff₀ (by norm_num) p0]
      norm_num at hρ2 ⊢
      linarith
    have t5 : 1.1 / 2 ^ 28 / ρ = 1.1 / 2 ^ 28 * (1 / ρ) := by ring
    have t6 : (1 : ℝ) / 2 ^ 30 / ρ = 1 / 2 ^ 30 * (1 / ρ) := by ring
    have t7 : (1 : ℝ) / 2 ^ 27 / ρ = 1 / 2 ^ 27 * (1 / ρ) := by ring
    have t8 : 0 < 1 / ρ := by positivity
    refine (near_div hx h.r (E := 1) (by norm_num) ?_ ?_).mono ?_
    · rw [abs_of_pos p0]; norm_num; linarith
    · rw [t5] at t3; norm_num at *; linarith
    · rw [t5] at t3; rw [t6] at t4; rw [t7]; norm_num at *; linarith
  obtain ⟨pc, pc1, pc2⟩ := key hcos (Real.abs_cos_le_one A)
  obtain ⟨ps, ps1, ps2⟩ := key hsin (Real.abs_sin_le_one A)
  have hunit : (Real.cos A / ρ) ^ 2 + (Real.sin A / ρ) ^ 2 = (1 / ρ) ^ 2 := by
    rw [div_pow, div_pow, div_pow, ← add_div, Real.cos_sq_add_sin_sq, one_pow]
  have hne2 : (pc, ps) ≠ (0, 0) := by
    intro h0
    rw [Prod.mk.injEq] at h0
    rw [h0.1] at pc2
    rw [h0.2] at ps2
    simp only [Rat.cast_zero, zero_sub, abs_neg] at pc2 ps2
    rw [abs_div, abs_of_pos p0, div_le_div_iff_of_pos_right p0] at pc2 ps2
    have s1 : Real.cos A ^ 2 ≤ (1 / 2 ^ 27) ^ 2 := by rw [← sq_abs]; gcongr
    have s2 : Real.sin A ^ 2 ≤ (1 / 2 ^ 27) ^ 2 := by rw [← sq_abs]; gcongr
    have := Real.cos_sq_add_sin_sq A
    norm_num at s1 s2
    linarith
  obtain ⟨B, B1, ⟨w, w1, w2⟩, B3, B4⟩ := hA.atan2 (s /. r) (c /. r) ps pc ps1 pc1 hne2
  obtain ⟨d1, d2⟩ := direction_close (by positivity : 0 ≤ 1 / ρ) hunit pc2 ps2 B3 B4
  refine ⟨B, B1, ⟨w, w1, w2⟩, ?_⟩
  have fin : ∀ {β α x : ℝ}, |1 / ρ * β - α / ρ| ≤ 5 / 2 * (1 / 2 ^ 27 / ρ) → |ρ * α - x| ≤ 5 / 2 * (1.15 * (ρ / 2 ^ 18)) →
      |β - x / ρ| ≤ 2.9 / 2 ^ 18 := by
    intro β α x h1 h2
    have e1 : 1 / ρ * β - α / ρ = (β - α) / ρ := by ring
    have e2 : 5 / 2 * (1 / 2 ^ 27 / ρ) = 5 / 2 / 2 ^ 27 / ρ := by ring
    rw [e1, abs_div, abs_of_pos p0, e2, div_le_div_iff_of_pos_right p0] at h1
    have e3 : α - x / ρ = (ρ * α - x) / ρ := by field_simp
    have h3 : |α - x / ρ| ≤ 5 / 2 * (1.15 / 2 ^ 18) := by
      rw [e3, abs_div, abs_of_pos p0, div_le_iff₀ p0]
      refine h2.trans (le_of_eq ?_)
      ring
    have := abs_sub_le β α (x / ρ)
    norm_num at *
    linarith
  exact ⟨fin d1 c1, fin d2 c2⟩

end Eta

/-! ### The angle spanned -/

theorem near_turn_add (hL : Accurate) {d : ℝ} (hd : d ≤ 1 / 2) {x : F64} {w : ℝ} (h : Near d x w) (hb : |w| ≤ 7) :
    Near (d + 1 / 2 ^ 49) (x +. GoFloat.piMul 2) (w + 2 * Real.pi) ∧ Near (d + 1 / 2 ^ 49) (x -. GoFloat.piMul 2) (w - 2 * Real.pi) := by
  have t := near_turn hL
  have hpi := Real.pi_pos
  have hpi4 := Real.pi_lt_d4
  have b1 := abs_add_le w (2 * Real.pi)
  have b2 := abs_sub w (2 * Real.pi)
  rw [abs_of_pos (by positivity : 0 < 2 * Real.pi)] at b1 b2
  constructor
  · refine (near_add h t (E := 4) (by norm_num) ?_).mono ?_
    · norm_num at *; linarith
    · norm_num; linarith
  · refine (near_sub h t (E := 4) (by norm_num) ?_).mono ?_
    · norm_num at *; linarith
    · norm_num; linarith

/-- Lines 171-177: whatever the first correction, the second one puts the angle on the side asked for. -/
theorem delta_near (hL : Accurate) {ys ye : F64} {As Ae : ℝ} (hs : Near (1 / 2 ^ 50) ys As) (he : Near (1 / 2 ^ 50) ye Ae)
    (bs : |As| ≤ Real.pi) (be : |Ae| ≤ Real.pi) (big sw : Bool) :
    let v1 := ye -. ys
    let v2 := if big then (if GoFloat.lt v1 (num 0) then v1 +. GoFloat.piMul 2 else v1 -. GoFloat.piMul 2) else v1
    let v3 := if GoFloat.lt v2 (num 0) && sw then v2 +. GoFloat.piMul 2
      else if GoFloat.le (num 0) v2 && !sw then v2 -. GoFloat.piMul 2 else v2
    ∃ k : ℤ, Near (1 / 2 ^ 46) v3 (Ae - As + k * (2 * Real.pi)) ∧
      if sw then -(1 / 2 ^ 46) ≤ Ae - As + k * (2 * Real.pi) ∧ Ae - As + k * (2 * Real.pi) ≤ 2 * Real.pi + 1 / 2 ^ 46
      else -(2 * Real.pi + 1 / 2 ^ 46) ≤ Ae - As + k * (2 * Real.pi) ∧ Ae - As + k * (2 * Real.pi) ≤ 1 / 2 ^ 46 := by
  intro v1 v2 v3
  have hpi := Real.pi_pos
  have hpi4 := Real.pi_lt_d4
  obtain ⟨s1, s2⟩ := abs_le.1 bs
  obtain ⟨e1, e2⟩ := abs_le.1 be
  have z0 : Is (num 0 : F64) 0 := is_num rep_zero
  have n1 : Near (1 / 2 ^ 48) v1 (Ae - As) := (near_sub he hs (E := 3) (by norm_num) (by
    have := abs_sub Ae As; norm_num at *; linarith)).mono (by norm_num)
  have lt0 : ∀ {d : ℝ} {x : F64} {w : ℝ}, Near d x w → (GoFloat.lt x (num 0) = true → w ≤ d) ∧ (¬ GoFloat.lt x (num 0) = true → -d ≤ w) := by
    intro d x w ⟨p, h1, h2⟩
    obtain ⟨g1, g2⟩ := abs_le.1 h2
    constructor
    · intro h
      have : p < 0 := (is_lt h1 z0).1 h
      have : (p : ℝ) < 0 := by exact_mod_cast this
      linarith
    · intro h
      have : ¬ p < 0 := fun h' => h ((is_lt h1 z0).2 h')
      have : (0 : ℝ) ≤ p := by exact_mod_cast not_lt.1 this
      linarith
  have step1 : ∃ k : ℤ, Near (1 / 2 ^ 47) v2 (Ae - As + k * (2 * Real.pi)) ∧ |Ae - As + k * (2 * Real.pi)| ≤ 2 * Real.pi + 1 / 2 ^ 47 := by
    cases big with
    | false =>
      refine ⟨0, ?_, ?_⟩
      · simp only [v2, Bool.false_eq_true, if_false, Int.cast_zero, zero_mul, add_zero]
        exact n1.mono (by norm_num)
      · simp only [Int.cast_zero, zero_mul, add_zero]
        rw [abs_le]
        norm_num
        constructor <;> linarith
    | true =>
      simp only [v2, if_true]
      obtain ⟨l1, l2⟩ := lt0 n1
      obtain ⟨a1, a2⟩ := near_turn_add hL (by norm_num) n1 (by rw [abs_le]; norm_num at *; constructor <;> linarith)
      by_cases h : GoFloat.lt v1 (num 0) = true
      · rw [if_pos h]
        have := l1 h
        refine ⟨1, ?_, ?_⟩
        · rw [Int.cast_one, one_mul]; exact a1.mono (by norm_num)
        · rw [Int.cast_one, one_mul, abs_le]; norm_num at *; constructor <;> linarith
      · rw [if_neg h]
        have := l2 h
        refine ⟨-1, ?_, ?_⟩
        · rw [Int.cast_neg, Int.cast_one, neg_one_mul, ← sub_eq_add_neg]; exact a2.mono (by norm_num)
        · rw [Int.cast_neg, Int.cast_one, neg_one_mul, ← sub_eq_add_neg, abs_le]; norm_num at *; constructor <;> linarith
  obtain ⟨k, n2, b2⟩ := step1
  clear_value v2
  obtain ⟨w, hw⟩ : ∃ w, w = Ae - As + k * (2 * Real.pi) := ⟨_, rfl⟩
  rw [← hw] at n2 b2
  have wk : ∀ j : ℤ, Ae - As + ((k + j : ℤ) : ℝ) * (2 * Real.pi) = w + j * (2 * Real.pi) := by intro j; rw [hw]; push_cast; ring
  obtain ⟨l1, l2⟩ := lt0 n2
  obtain ⟨a1, a2⟩ := near_turn_add hL (by norm_num) n2 (by norm_num at *; linarith)
  obtain ⟨g1, g2⟩ := abs_le.1 b2
  have hle : GoFloat.le (num 0) v2 = !GoFloat.lt v2 (num 0) := by
    obtain ⟨p, h1, -⟩ := n2
    rw [Bool.eq_iff_iff]
    have e1 := is_le z0 h1
    have e2 := is_lt h1 z0
    change GoFloat.le (num 0) v2 = true ↔ _ at e1
    change GoFloat.lt v2 (num 0) = true ↔ _ at e2
    rw [e1, Bool.not_eq_true', ← Bool.not_eq_true, e2, not_lt]
  simp only [v3]
  rw [hle]
  by_cases h : GoFloat.lt v2 (num 0) = true
  · have h3 := l1 h
    rw [h]
    cases sw with
    | true =>
      refine ⟨k + 1, ?_⟩
      rw [wk, Int.cast_one, one_mul]
      simp only [Bool.and_self, if_true]
      refine ⟨a1.mono (by norm_num), ?_, ?_⟩ <;> norm_num at * <;> linarith
    | false =>
      refine ⟨k, ?_⟩
      rw [← hw]
      simp only [Bool.and_false, Bool.not_true, Bool.not_false, Bool.false_and, Bool.false_eq_true, if_false]
      refine ⟨n2.mono (by norm_num), ?_, ?_⟩ <;> norm_num at * <;> linarith
  · have h3 := l2 h
    rw [Bool.not_eq_true] at h
    rw [h]
    cases sw with
    | true =>
      refine ⟨k, ?_⟩
      rw [← hw]
      simp only [Bool.false_and, Bool.not_true, Bool.not_false, Bool.and_false, Bool.false_eq_true, if_false, if_true]
      refine ⟨n2.mono (by norm_num), ?_, ?_⟩ <;> norm_num at * <;> linarith
    | false =>
      refine ⟨k + -1, ?_⟩
      rw [wk, Int.cast_neg, Int.cast_one, neg_one_mul, ← sub_eq_add_neg]
      simp only [Bool.and_self, Bool.not_false, Bool.false_eq_true, if_false, if_true]
      refine ⟨a2.mono (by norm_num), ?_, ?_⟩ <;> norm_num at * <;> linarith

end GoSvg.F64
