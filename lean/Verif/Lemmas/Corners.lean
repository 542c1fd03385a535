import Verif.Lemmas.ArcChain
import Verif.Spec.Corners
import Verif.Spec.Float64

/-! The rounded corners of rectangles: the cubics, and the loop that stores them, in any arithmetic whose sines and cosines are right up to a little
more than a unit of the grid. -/

namespace GoSvg

open Spec

/-! ### The cubics -/

/-- The squared distance from the centre of a cubic with handles `κ` times the tangents; `m` is the angle in the middle, `h` half the step. -/
theorem handle_level (m h κ t : ℝ) :
    ((1 - t) ^ 3 * Real.cos (m - h) + 3 * (1 - t) ^ 2 * t * (Real.cos (m - h) + κ * -Real.sin (m - h)) +
      3 * (1 - t) * t ^ 2 * (Real.cos (m + h) - κ * -Real.sin (m + h)) + t ^ 3 * Real.cos (m + h)) ^ 2 +
    ((1 - t) ^ 3 * Real.sin (m - h) + 3 * (1 - t) ^ 2 * t * (Real.sin (m - h) + κ * Real.cos (m - h)) +
      3 * (1 - t) * t ^ 2 * (Real.sin (m + h) - κ * Real.cos (m + h)) + t ^ 3 * Real.sin (m + h)) ^ 2 =
    1 + (t * (1 - t)) ^ 2 * (9 * κ ^ 2 * Real.sin h ^ 2 + (2 * Real.sin h - 3 * κ * Real.cos h) ^ 2 -
      8 * Real.sin h * (2 * Real.sin h - 3 * κ * Real.cos h) - 4 * (t * (1 - t)) * (2 * Real.sin h - 3 * κ * Real.cos h) ^ 2) := by
  have e1 := Real.sin_sq_add_cos_sq m
  have e2 := Real.sin_sq_add_cos_sq h
  rw [Real.cos_sub, Real.cos_add, Real.sin_sub, Real.sin_add]
  generalize Real.sin m = sm at *
  generalize Real.cos m = cm at *
  generalize Real.sin h = s at *
  generalize Real.cos h = c at *
  have k : ∀ U V x y : ℝ, x = cm * U - sm * V → y = sm * U + cm * V → x ^ 2 + y ^ 2 = U ^ 2 + V ^ 2 := by
    rintro U V x y rfl rfl
    linear_combination (U ^ 2 + V ^ 2) * e1
  rw [k (c + 3 * κ * s * (t * (1 - t))) ((2 * t - 1) * (s + t * (1 - t) * (2 * s - 3 * κ * c))) _ _ (by ring) (by ring)]
  linear_combination e2

/-- The five cubics of a corner. -/
noncomputable def cornerCubics (X Y ρ η : ℝ) : List Cubic :=
  (List.range' 0 5).map fun j : ℕ => piece ⟨X, Y, ρ, ρ, 0⟩ (3 / 32) (η + Real.pi / 10 * j) (Real.pi / 10)

theorem twentieth : 0.1561 < Real.sin (Real.pi / 20) ∧ Real.sin (Real.pi / 20) < 0.1571 ∧ 0.98766 ≤ Real.cos (Real.pi / 20) ∧
    Real.cos (Real.pi / 20) ≤ 0.98775 := by
  have p1 := Real.pi_gt_d4
  have p2 := Real.pi_lt_d4
  have h1 : 0.15707 < Real.pi / 20 := by norm_num at *; linarith
  have h2 : Real.pi / 20 < 0.15709 := by norm_num at *; linarith
  generalize Real.pi / 20 = x at *
  have s1 := Real.sin_gt_sub_cube (x := x) (by norm_num at *; linarith)
  have s2 := Real.sin_lt (x := x) (by norm_num at *; linarith)
  have c1 := Real.one_sub_sq_div_two_le_cos (x := x)
  have hx2 : x ^ 2 ≤ 0.15709 ^ 2 := by apply pow_le_pow_left₀ <;> norm_num at * <;> linarith
  have hx3 : x ^ 3 ≤ 0.15709 ^ 3 := by apply pow_le_pow_left₀ <;> norm_num at * <;> linarith
  have a1 : 0.1561 < Real.sin x := by norm_num at *; linarith
  refine ⟨a1, by norm_num at *; linarith, by norm_num at *; linarith, ?_⟩
  have e := Real.sin_sq_add_cos_sq x
  have : 0.1561 ^ 2 ≤ Real.sin x ^ 2 := by apply pow_le_pow_left₀ <;> norm_num at * <;> linarith
  by_contra hc
  have : 0.98775 ^ 2 ≤ Real.cos x ^ 2 := by apply pow_le_pow_left₀ <;> norm_num at hc ⊢ <;> linarith
  norm_num at this a1
  nlinarith

theorem corner_near (X Y ρ η t : ℝ) (h0 : 0 ≤ t) (h1 : t ≤ 1) :
    let p := (piece ⟨X, Y, ρ, ρ, 0⟩ (3 / 32) η (Real.pi / 10)).at t
    (1 - 1 / 600) ^ 2 * ρ ^ 2 ≤ (p.1 - X) ^ 2 + (p.2 - Y) ^ 2 ∧ (p.1 - X) ^ 2 + (p.2 - Y) ^ 2 ≤ ρ ^ 2 := by
  intro p
  have key := handle_level (η + Real.pi / 20) (Real.pi / 20) (3 / 32) t
  rw [show η + Real.pi / 20 - Real.pi / 20 = η by ring, show η + Real.pi / 20 + Real.pi / 20 = η + Real.pi / 10 by ring] at key
  have hp := piece_at ⟨X, Y, ρ, ρ, 0⟩ (3 / 32) η (Real.pi / 10) t
  obtain ⟨s1, s2, c1, c2⟩ := twentieth
  generalize Real.sin (Real.pi / 20) = s at *
  generalize Real.cos (Real.pi / 20) = c at *
  obtain ⟨x, hx⟩ : ∃ x, x = (1 - t) ^ 3 * Real.cos η + 3 * (1 - t) ^ 2 * t * (Real.cos η + 3 / 32 * -Real.sin η) +
      3 * (1 - t) * t ^ 2 * (Real.cos (η + Real.pi / 10) - 3 / 32 * -Real.sin (η + Real.pi / 10)) + t ^ 3 * Real.cos (η + Real.pi / 10) := ⟨_, rfl⟩
  obtain ⟨y, hy⟩ : ∃ y, y = (1 - t) ^ 3 * Real.sin η + 3 * (1 - t) ^ 2 * t * (Real.sin η + 3 / 32 * Real.cos η) +
      3 * (1 - t) * t ^ 2 * (Real.sin (η + Real.pi / 10) - 3 / 32 * Real.cos (η + Real.pi / 10)) + t ^ 3 * Real.sin (η + Real.pi / 10) := ⟨_, rfl⟩
  rw [← hx, ← hy] at key hp
  have hp' : p = (X + ρ * x, Y + ρ * y) := by
    simp only [p]
    rw [hp]
    simp [Ellipse.img]
  have e : (p.1 - X) ^ 2 + (p.2 - Y) ^ 2 = ρ ^ 2 * (x ^ 2 + y ^ 2) := by rw [hp']; ring
  rw [e, key]
  clear key hp hp' hx hy e
  have τ0 : 0 ≤ t * (1 - t) := by nlinarith
  have τ1 : t * (1 - t) ≤ 1 / 4 := by nlinarith [sq_nonneg (2 * t - 1)]
  generalize t * (1 - t) = τ at *
  obtain ⟨g, hg⟩ : ∃ g, g = 2 * s - 3 * (3 / 32) * c := ⟨_, rfl⟩
  rw [← hg]
  have g1 : 0.0343 ≤ g := by norm_num at *; linarith
  have g2 : g ≤ 0.0366 := by norm_num at *; linarith
  have hs2 : s ^ 2 ≤ 0.1571 ^ 2 := by apply pow_le_pow_left₀ <;> norm_num at * <;> linarith
  have hg2 : g ^ 2 ≤ 0.0366 ^ 2 := by apply pow_le_pow_left₀ <;> norm_num at * <;> linarith
  have hsg : s * g ≤ 0.1571 * 0.0366 := by apply mul_le_mul <;> norm_num at * <;> linarith
  have hsg' : 0.1561 * 0.0343 ≤ s * g := by apply mul_le_mul <;> norm_num at * <;> linarith
  have hτ2 : τ ^ 2 ≤ (1 / 4) ^ 2 := pow_le_pow_left₀ τ0 τ1 2
  have hτ20 : 0 ≤ τ ^ 2 := sq_nonneg _
  have hτg : τ * g ^ 2 ≤ 1 / 4 * 0.0366 ^ 2 := by apply mul_le_mul <;> norm_num at * <;> nlinarith
  have hτg0 : 0 ≤ τ * g ^ 2 := mul_nonneg τ0 (sq_nonneg _)
  have hb1 : 9 * (3 / 32) ^ 2 * s ^ 2 + g ^ 2 - 8 * s * g - 4 * τ * g ^ 2 ≤ 0 := by norm_num at *; linarith
  have hb2 : -0.05 ≤ 9 * (3 / 32) ^ 2 * s ^ 2 + g ^ 2 - 8 * s * g - 4 * τ * g ^ 2 := by
    have := sq_nonneg s
    have := sq_nonneg g
    norm_num at *
    linarith
  generalize 9 * (3 / 32) ^ 2 * s ^ 2 + g ^ 2 - 8 * s * g - 4 * τ * g ^ 2 = b at *
  have hm1 : τ ^ 2 * b ≤ 0 := mul_nonpos_of_nonneg_of_nonpos hτ20 hb1
  have hm2 : -(1 / 310) ≤ τ ^ 2 * b := by norm_num at *; nlinarith
  have hρ := sq_nonneg ρ
  constructor
  · rw [mul_comm]
    apply mul_le_mul_of_nonneg_left _ hρ
    norm_num at *
    linarith
  · nlinarith

theorem cornerCubics_round (X Y ρ η : ℝ) : Rounds X Y ρ η (cornerCubics X Y ρ η) where
  length := by simp [cornerCubics]
  start j h := by
    have e : η + Real.pi / 10 * (0 + 1 * j : ℕ) = η + Real.pi / 2 * j / 5 := by push_cast; ring
    simp only [cornerCubics, List.getElem_map, List.getElem_range', piece, e]
  stop j h := by
    have e : η + Real.pi / 10 * (0 + 1 * j : ℕ) + Real.pi / 10 = η + Real.pi / 2 * (j + 1) / 5 := by push_cast; ring
    simp only [cornerCubics, List.getElem_map, List.getElem_range', piece, e]
  tangent := by
    refine ⟨3 / 32, by norm_num, fun j h => ?_⟩
    have e1 : η + Real.pi / 10 * (0 + 1 * j : ℕ) = η + Real.pi / 2 * j / 5 := by push_cast; ring
    have e2 : η + Real.pi / 2 * j / 5 + Real.pi / 10 = η + Real.pi / 2 * (j + 1) / 5 := by ring
    simp only [cornerCubics, List.getElem_map, List.getElem_range', piece, e1, e2, and_self]
  near c hc t h0 h1 := by
    simp only [cornerCubics, List.mem_map] at hc
    obtain ⟨j, -, rfl⟩ := hc
    exact corner_near _ _ _ _ _ h0 h1

/-! ### Points of the grid -/

theorem wrap32_id {n : ℤ} (h1 : -2 ^ 31 ≤ n) (h2 : n < 2 ^ 31) : wrap32 n = n := by
  unfold wrap32
  rw [Int.bmod_eq_of_le (by omega) (by omega)]

/-- A sixty-fourth of six times a number, truncated. -/
theorem handle_trunc {v : ℤ} (h : |v| ≤ 2 ^ 27) : |(((wrap32 (v * 6)).tdiv 64 : ℤ) : ℝ) - 3 / 32 * v| < 1 ∧ |(wrap32 (v * 6)).tdiv 64| ≤ 2 ^ 27 := by
  have hb := abs_le.1 h
  rw [wrap32_id (by omega) (by omega)]
  obtain ⟨q, hq⟩ : ∃ q, q = (v * 6).tdiv 64 := ⟨_, rfl⟩
  rw [← hq]
  have k1 : -63 ≤ 64 * q - v * 6 ∧ 64 * q - v * 6 ≤ 63 := by
    rcases le_total 0 (v * 6) with h | h
    · have e : (v * 6).tdiv 64 = v * 6 / 64 := Int.tdiv_eq_ediv_of_nonneg h
      omega
    · have e : (v * 6).tdiv 64 = -(-(v * 6) / 64) := by
        have h2 : (-(v * 6)).tdiv 64 = -(v * 6) / 64 := Int.tdiv_eq_ediv_of_nonneg (by omega)
        rw [Int.neg_tdiv] at h2
        omega
      omega
  have k2 : ((-63 : ℤ) : ℝ) ≤ ((64 * q - v * 6 : ℤ) : ℝ) ∧ ((64 * q - v * 6 : ℤ) : ℝ) ≤ ((63 : ℤ) : ℝ) := by exact_mod_cast k1
  push_cast at k2
  refine ⟨?_, ?_⟩
  · rw [abs_lt]
    constructor <;> linarith [k2.1, k2.2]
  · rw [abs_le]
    constructor <;> omega

variable {F : Type} [GoFloat F]

/-- A circle of the grid close to an exact one: centre `a` and radius `R` in sixty-fourths are close to (X, Y) and `ρ`, and the matrix leaves points in
range alone. -/
structure NearCircle (m : Matrix2D F) (a : Pt) (R : ℤ) (X Y ρ : ℝ) : Prop where
  same : ∀ p : Pt, |p.x| ≤ 2 ^ 30 → |p.y| ≤ 2 ^ 30 → m.tFixed p = p
  ax : |a.x| ≤ 2 ^ 29
  ay : |a.y| ≤ 2 ^ 29
  hX : |(a.x : ℝ) - 64 * X| ≤ 5 / 4
  hY : |(a.y : ℝ) - 64 * Y| ≤ 5 / 4
  R0 : 0 ≤ R
  R1 : R ≤ 2 ^ 26
  hR : |(R : ℝ) - 64 * ρ| ≤ 5 / 4

/-- A tangent of the grid close to an exact one at the angle `φ`. -/
def NearTangent (R : ℤ) (φ : ℝ) (l : Pt) : Prop := |(l.x : ℝ) + R * Real.sin φ| ≤ 17 / 16 ∧ |(l.y : ℝ) - R * Real.cos φ| ≤ 17 / 16

variable {m : Matrix2D F} {a : Pt} {R : ℤ} {X Y ρ : ℝ}

theorem NearTangent.range {φ : ℝ} {l : Pt} (h : NearTangent R φ l) (R0 : 0 ≤ R) (R1 : R ≤ 2 ^ 26) : |l.x| ≤ 2 ^ 27 ∧ |l.y| ≤ 2 ^ 27 := by
  have r0 : (0 : ℝ) ≤ R := by exact_mod_cast R0
  have r1 : (R : ℝ) ≤ 2 ^ 26 := by exact_mod_cast R1
  have k : ∀ {v c : ℝ}, |c| ≤ 1 → |v - R * c| ≤ 17 / 16 → |v| ≤ 2 ^ 27 := by
    intro v c hc hv
    have h1 : |(R : ℝ) * c| ≤ R := by rw [abs_mul, abs_of_nonneg r0]; exact mul_le_of_le_one_right r0 hc
    have h2 := abs_sub_abs_le_abs_sub v (R * c)
    norm_num at r1 ⊢
    linarith
  obtain ⟨h1, h2⟩ := h
  have e : (l.x : ℝ) + R * Real.sin φ = l.x - R * (-Real.sin φ) := by ring
  rw [e] at h1
  have b1 := k (by rw [abs_neg]; exact Real.abs_sin_le_one φ) h1
  have b2 := k (Real.abs_cos_le_one φ) h2
  constructor
  · exact_mod_cast b1
  · exact_mod_cast b2

theorem near_ends (A X' R' ρ' L c : ℝ) (hA : |A - 64 * X'| ≤ 5 / 4) (hR : |R' - 64 * ρ'| ≤ 5 / 4) (hL : |L - R' * c| ≤ 17 / 16) (hc : |c| ≤ 1) :
    |(A + L) / 64 - (X' + ρ' * c)| < 5 / 64 := by
  have h1 : |(R' - 64 * ρ') * c| ≤ 5 / 4 := by
    rw [abs_mul]
    nlinarith [abs_nonneg c, abs_nonneg (R' - 64 * ρ')]
  obtain ⟨a1, a2⟩ := abs_le.1 hA
  obtain ⟨b1, b2⟩ := abs_le.1 hL
  obtain ⟨c1, c2⟩ := abs_le.1 h1
  rw [abs_lt]
  constructor <;> linarith

theorem near_handles (A X' R' ρ' L M q c s : ℝ) (hA : |A - 64 * X'| ≤ 5 / 4) (hR : |R' - 64 * ρ'| ≤ 5 / 4) (hL : |L - R' * c| ≤ 17 / 16)
    (hM : |M - R' * s| ≤ 17 / 16) (hq : |q - 3 / 32 * M| < 1) (hc : |c| ≤ 1) (hs : |s| ≤ 1) :
    |(A + L + q) / 64 - (X' + ρ' * c + 3 / 32 * (ρ' * s))| < 5 / 64 := by
  have h1 : |(R' - 64 * ρ') * (c + 3 / 32 * s)| ≤ 5 / 4 * (35 / 32) := by
    rw [abs_mul]
    have : |c + 3 / 32 * s| ≤ 35 / 32 := by
      refine (abs_add_le _ _).trans ?_
      rw [abs_mul, abs_of_pos (by norm_num : (0 : ℝ) < 3 / 32)]
      linarith
    exact mul_le_mul hR this (abs_nonneg _) (by norm_num)
  obtain ⟨a1, a2⟩ := abs_le.1 hA
  obtain ⟨b1, b2⟩ := abs_le.1 hL
  obtain ⟨c1, c2⟩ := abs_le.1 h1
  obtain ⟨d1, d2⟩ := abs_le.1 hM
  obtain ⟨e1, e2⟩ := abs_lt.1 hq
  rw [abs_lt]
  constructor <;> linarith

/-- The point of the grid with the tangent `l`. -/
def ringPt (a l : Pt) : Pt := ⟨wrap32 (a.x + l.y), wrap32 (a.y - l.x)⟩

theorem ringPt_eq (h : NearCircle m a R X Y ρ) {φ : ℝ} {l : Pt} (hl : NearTangent R φ l) :
    ringPt a l = ⟨a.x + l.y, a.y - l.x⟩ ∧ |a.x + l.y| ≤ 2 ^ 29 + 2 ^ 27 ∧ |a.y - l.x| ≤ 2 ^ 29 + 2 ^ 27 := by
  obtain ⟨b1, b2⟩ := hl.range h.R0 h.R1
  have h1 := abs_le.1 h.ax
  have h2 := abs_le.1 h.ay
  have h3 := abs_le.1 b1
  have h4 := abs_le.1 b2
  refine ⟨?_, by rw [abs_le]; constructor <;> omega, by rw [abs_le]; constructor <;> omega⟩
  unfold ringPt
  rw [wrap32_id (by omega) (by omega), wrap32_id (by omega) (by omega)]

theorem ring_within (h : NearCircle m a R X Y ρ) {φ : ℝ} {l : Pt} (hl : NearTangent R φ l) :
    m.tFixed (ringPt a l) = ringPt a l ∧ PtWithin (5 / 64) (ringPt a l) ((Ellipse.mk X Y ρ ρ 0).point φ) := by
  obtain ⟨e, b1, b2⟩ := ringPt_eq h hl
  rw [e]
  refine ⟨h.same _ (by simp only; omega) (by simp only; omega), ?_⟩
  have k1 := near_ends a.x X R ρ l.y (Real.cos φ) h.hX h.hR hl.2 (Real.abs_cos_le_one φ)
  have k2 := near_ends a.y Y R ρ (-l.x) (Real.sin φ) h.hY h.hR (by
    have := hl.1
    rw [← abs_neg] at this
    convert this using 2
    ring) (Real.abs_sin_le_one φ)
  constructor
  · simpa [Ellipse.point] using k1
  · simpa [Ellipse.point, ← sub_eq_add_neg] using k2

theorem handle_within (h : NearCircle m a R X Y ρ) {φ : ℝ} {l : Pt} (hl : NearTangent R φ l) :
    (m.tFixed ((ringPt a l).add (l.mul 6)) = (ringPt a l).add (l.mul 6) ∧
      PtWithin (5 / 64) ((ringPt a l).add (l.mul 6)) ((Ellipse.mk X Y ρ ρ 0).point φ + (3 / 32 : ℝ) • (Ellipse.mk X Y ρ ρ 0).tangent φ)) ∧
    m.tFixed ((ringPt a l).sub (l.mul 6)) = (ringPt a l).sub (l.mul 6) ∧
      PtWithin (5 / 64) ((ringPt a l).sub (l.mul 6)) ((Ellipse.mk X Y ρ ρ 0).point φ - (3 / 32 : ℝ) • (Ellipse.mk X Y ρ ρ 0).tangent φ) := by
  obtain ⟨e, b1, b2⟩ := ringPt_eq h hl
  obtain ⟨r1, r2⟩ := hl.range h.R0 h.R1
  obtain ⟨q1, q2⟩ := handle_trunc r1
  obtain ⟨q3, q4⟩ := handle_trunc r2
  have e1 := abs_le.1 b1
  have e2 := abs_le.1 b2
  have e3 := abs_le.1 q2
  have e4 := abs_le.1 q4
  have hc := Real.abs_cos_le_one φ
  have hs := Real.abs_sin_le_one φ
  have hns : |-Real.sin φ| ≤ 1 := by rwa [abs_neg]
  have hx : |(l.x : ℝ) - R * (-Real.sin φ)| ≤ 17 / 16 := by
    have := hl.1
    convert this using 2
    ring
  have hx' : |((-l.x : ℤ) : ℝ) - R * Real.sin φ| ≤ 17 / 16 := by
    have := hl.1
    rw [← abs_neg] at this
    push_cast
    convert this using 2
    ring
  have neg1 : ∀ {q v : ℝ}, |q - 3 / 32 * v| < 1 → |-q - 3 / 32 * -v| < 1 := by
    intro q v hq
    rw [← abs_neg] at hq
    convert hq using 2
    ring
  have neg2 : ∀ {v c : ℝ}, |v - R * c| ≤ 17 / 16 → |-v - R * -c| ≤ 17 / 16 := by
    intro v c hq
    rw [← abs_neg] at hq
    convert hq using 2
    ring
  have hq : l.mul 6 = ⟨(wrap32 (l.x * 6)).tdiv 64, (wrap32 (l.y * 6)).tdiv 64⟩ := rfl
  rw [hq]
  generalize (wrap32 (l.x * 6)).tdiv 64 = u at *
  generalize (wrap32 (l.y * 6)).tdiv 64 = v at *
  have ha : (ringPt a l).add ⟨u, v⟩ = ⟨a.x + l.y + u, a.y - l.x + v⟩ := by
    rw [e]
    unfold Pt.add
    rw [wrap32_id (by simp only; omega) (by simp only; omega), wrap32_id (by simp only; omega) (by simp only; omega)]
  have hb : (ringPt a l).sub ⟨u, v⟩ = ⟨a.x + l.y - u, a.y - l.x - v⟩ := by
    rw [e]
    unfold Pt.sub
    rw [wrap32_id (by simp only; omega) (by simp only; omega), wrap32_id (by simp only; omega) (by simp only; omega)]
  rw [ha, hb]
  refine ⟨⟨h.same _ (by rw [abs_le]; constructor <;> simp only <;> omega) (by rw [abs_le]; constructor <;> simp only <;> omega), ?_⟩,
    h.same _ (by rw [abs_le]; constructor <;> simp only <;> omega) (by rw [abs_le]; constructor <;> simp only <;> omega), ?_⟩
  · have k1 := near_handles a.x X R ρ l.y l.x u (Real.cos φ) (-Real.sin φ) h.hX h.hR hl.2 hx q1 hc hns
    have k2 := near_handles a.y Y R ρ (-l.x : ℤ) l.y v (Real.sin φ) (Real.cos φ) h.hY h.hR hx' hl.2 q3 hs hc
    constructor
    · simpa [Ellipse.point, Ellipse.tangent] using k1
    · simpa [Ellipse.point, Ellipse.tangent, ← sub_eq_add_neg] using k2
  · have k1 := near_handles a.x X R ρ l.y (-l.x) (-u) (Real.cos φ) (- -Real.sin φ) h.hX h.hR hl.2 (neg2 hx) (neg1 q1) hc (by rwa [neg_neg])
    have k2 := near_handles a.y Y R ρ (-l.x : ℤ) (-l.y) (-v) (Real.sin φ) (-Real.cos φ) h.hY h.hR hx' (neg2 hl.2) (neg1 q3) hs (by rwa [abs_neg])
    constructor
    · simpa [Ellipse.point, Ellipse.tangent, ← sub_eq_add_neg] using k1
    · simpa [Ellipse.point, Ellipse.tangent, ← sub_eq_add_neg] using k2

/-- The tangent the loop computes at the angle `eta`. -/
def ringTan (r eta : F) : Pt := ⟨wrap32 (-(GoFloat.toI32 (r *. GoFloat.sin eta))), GoFloat.toI32 (r *. GoFloat.cos eta)⟩

/-- The loop stores cubics close to those of the exact circle. -/
theorem ring_loop (h : NearCircle m a R X Y ρ) {θ d r : F} {η δ : ℝ} {N : Nat}
    (ht : ∀ i : Nat, 1 ≤ i → i ≤ N → NearTangent R (η + δ * i) (ringTan r (θ +. d *. GoFloat.ofInt (i : ℤ)))) (n : Nat) :
    ∀ (j : Nat) (l : Pt), j + n ≤ N → NearTangent R (η + δ * j) l →
      List.Forall₂ (OpWithin (5 / 64)) (circLoop m a θ d r 6 n (j + 1) (ringPt a l) l)
        ((List.range' j n).map fun k : ℕ => GOp.cubicTo (piece ⟨X, Y, ρ, ρ, 0⟩ (3 / 32) (η + δ * k) δ).p1
          (piece ⟨X, Y, ρ, ρ, 0⟩ (3 / 32) (η + δ * k) δ).p2 (piece ⟨X, Y, ρ, ρ, 0⟩ (3 / 32) (η + δ * k) δ).p3) := by
  induction n with
  | zero => intro j l _ _; exact .nil
  | succ n ih =>
    intro j l hj hl
    have hn := ht (j + 1) (by omega) (by omega)
    have e : η + δ * (j + 1 : ℕ) = η + δ * j + δ := by push_cast; ring
    have ih' := ih (j + 1) _ (by omega) hn
    rw [e] at hn
    obtain ⟨⟨a1, a2⟩, -, -⟩ := handle_within h hl
    obtain ⟨-, b1, b2⟩ := handle_within h hn
    obtain ⟨c1, c2⟩ := ring_within h hn
    rw [circLoop, List.range'_succ, List.map_cons]
    refine List.Forall₂.cons ?_ ih'
    simp only [piece]
    show OpWithin _ (.cubicTo (m.tFixed ((ringPt a l).add (l.mul 6)))
      (m.tFixed ((ringPt a (ringTan r (θ +. d *. GoFloat.ofInt ((j + 1 : ℕ) : ℤ)))).sub ((ringTan r (θ +. d *. GoFloat.ofInt ((j + 1 : ℕ) : ℤ))).mul 6)))
      (m.tFixed (ringPt a (ringTan r (θ +. d *. GoFloat.ofInt ((j + 1 : ℕ) : ℤ)))))) _
    rw [a1, b1, c1]
    exact .cubicTo a2 b2 c2

/-- What is drawn for a corner: a line to its beginning, the cubics, a line to its end. -/
noncomputable def cornerOps (X Y ρ η : ℝ) : List (GOp ℝ) :=
  .lineTo ((Ellipse.mk X Y ρ ρ 0).point η) :: (cornerCubics X Y ρ η).map (fun c => .cubicTo c.p1 c.p2 c.p3) ++
    [.lineTo ((Ellipse.mk X Y ρ ρ 0).point (η + Real.pi / 2))]

/-- A corner in an arithmetic where the angles are `θ₁` and `θ₂` (after raising), there are five steps and the handles are six sixty-fourths of the
tangents. -/
theorem gap_within (h : NearCircle m a R X Y ρ) {fuel : Nat} {t l : Pt} {θ₁ θ₂ : F} {η : ℝ}
    (h1 : GoFloat.atan2 (GoFloat.ofInt (wrap32 ((a.add t).y - a.y)) : F) (GoFloat.ofInt (wrap32 ((a.add t).x - a.x))) = θ₁)
    (h2 : raise fuel (GoFloat.atan2 (GoFloat.ofInt (wrap32 ((a.add l).y - a.y)) : F) (GoFloat.ofInt (wrap32 ((a.add l).x - a.x)))) θ₁ = some θ₂)
    (hseg : GoFloat.toInt (GoFloat.abs (θ₂ -. θ₁) /. GoFloat.piMul (1 / 8)) = 4)
    (hal : GoFloat.toI32 (GoFloat.sin ((θ₂ -. θ₁) /. GoFloat.ofInt 5) *. (GoFloat.sqrt (num 4 +. num 3 *.
      GoFloat.tan ((θ₂ -. θ₁) /. GoFloat.ofInt 5 /. num 2) *. GoFloat.tan ((θ₂ -. θ₁) /. GoFloat.ofInt 5 /. num 2)) -. num 1) *. num (64 / 3)) = 6)
    (hlen : length F ((a.add t).sub a) = R)
    (h0 : NearTangent R η (ringTan (GoFloat.ofInt R) θ₁))
    (ht : ∀ i : Nat, 1 ≤ i → i ≤ 5 → NearTangent R (η + Real.pi / 10 * i)
      (ringTan (GoFloat.ofInt R) (θ₁ +. (θ₂ -. θ₁) /. GoFloat.ofInt 5 *. GoFloat.ofInt (i : ℤ))))
    (hl : NearTangent R (η + Real.pi / 2) ⟨-l.y, l.x⟩) :
    ∃ g, roundGap fuel m a t l = some g ∧ List.Forall₂ (OpWithin (5 / 64)) g (cornerOps X Y ρ η) := by
  have hloop := ring_loop h (θ := θ₁) (N := 5) ht 5 0 (ringTan (GoFloat.ofInt R) θ₁) (by norm_num) (by simpa using h0)
  have e : η + Real.pi / 10 * (0 : ℕ) = η := by simp
  obtain ⟨c1, c2⟩ := ring_within h h0
  obtain ⟨d1, d2⟩ := ring_within h hl
  have hend : ringPt a ⟨-l.y, l.x⟩ = a.add l := by unfold ringPt Pt.add; simp
  rw [hend] at d1 d2
  refine ⟨.lineTo (m.tFixed (ringPt a (ringTan (GoFloat.ofInt R) θ₁))) :: circLoop m a θ₁ ((θ₂ -. θ₁) /. GoFloat.ofInt 5) (GoFloat.ofInt R) 6 5 1
    (ringPt a (ringTan (GoFloat.ofInt R) θ₁)) (ringTan (GoFloat.ofInt R) θ₁) ++ [.lineTo (m.tFixed (a.add l))], ?_, ?_⟩
  · unfold roundGap addArcCirc
    simp only [Bool.not_true, Bool.false_eq_true, if_false, h1, h2, Option.map_some, gt_iff_lt, lt_irrefl, hseg, hlen]
    have e5 : wrap64 (4 + 1) = 5 := by decide
    simp only [e5, hal]
    rfl
  · unfold cornerOps cornerCubics
    rw [c1, d1, List.map_map]
    exact List.Forall₂.cons (.lineTo c2) (List.rel_append hloop (.cons (.lineTo d2) .nil))

end GoSvg
