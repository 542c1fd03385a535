import Verif.Lemmas.Arc
import Mathlib.Analysis.Real.Pi.Bounds

/-! The cubics of an arc. -/

namespace GoSvg

open Spec

/-! ### One cubic on the unit circle -/

/-- The factor of the tangents for a step of `θ`. -/
noncomputable def alphaOf (θ : ℝ) : ℝ :=
  Real.sin θ * (Real.sqrt (4 + 3 * Real.tan (θ / 2) * Real.tan (θ / 2)) - 1) / 3

theorem alphaOf_half {h : ℝ} (hc : 0 < Real.cos h) :
    alphaOf (2 * h) = 2 * Real.sin h * (Real.sqrt (4 - Real.sin h ^ 2) - Real.cos h) / 3 := by
  unfold alphaOf
  rw [show 2 * h / 2 = h by ring, Real.sin_two_mul, Real.tan_eq_sin_div_cos]
  have e : Real.cos h * Real.sqrt (4 + 3 * (Real.sin h / Real.cos h) * (Real.sin h / Real.cos h)) = Real.sqrt (4 - Real.sin h ^ 2) := by
    rw [← Real.sqrt_sq hc.le, ← Real.sqrt_mul (by positivity), Real.sqrt_sq hc.le]
    congr 1
    have := Real.sin_sq_add_cos_sq h
    field_simp
    linarith
  rw [← e]; ring

/-- The squared distance from the centre along the cubic, exactly. `m` is the angle in the middle of the step. -/
theorem circle_level {h : ℝ} (hc : 0 < Real.cos h) (m t : ℝ) :
    let a := alphaOf (2 * h)
    let x := (1 - t) ^ 3 * Real.cos (m - h) + 3 * (1 - t) ^ 2 * t * (Real.cos (m - h) + a * -Real.sin (m - h)) +
      3 * (1 - t) * t ^ 2 * (Real.cos (m + h) - a * -Real.sin (m + h)) + t ^ 3 * Real.cos (m + h)
    let y := (1 - t) ^ 3 * Real.sin (m - h) + 3 * (1 - t) ^ 2 * t * (Real.sin (m - h) + a * Real.cos (m - h)) +
      3 * (1 - t) * t ^ 2 * (Real.sin (m + h) - a * Real.cos (m + h)) + t ^ 3 * Real.sin (m + h)
    x ^ 2 + y ^ 2 = 1 - (4 * t * (1 - t)) ^ 3 *
      (Real.sin h / 2 * (1 - (Real.sqrt (4 - Real.sin h ^ 2) - Real.cos h) * Real.cos h)) ^ 2 := by
  intro a x y
  have ha : a = 2 * Real.sin h * (Real.sqrt (4 - Real.sin h ^ 2) - Real.cos h) / 3 := alphaOf_half hc
  have hr : Real.sqrt (4 - Real.sin h ^ 2) ^ 2 = 4 - Real.sin h ^ 2 :=
    Real.sq_sqrt (by nlinarith [Real.sin_sq_le_one h])
  have hs := Real.sin_sq_add_cos_sq h
  have hm := Real.sin_sq_add_cos_sq m
  -- coordinates turned back by m
  obtain ⟨X, hX⟩ : ∃ X, X = Real.cos h + 3 * a * Real.sin h * t * (1 - t) := ⟨_, rfl⟩
  obtain ⟨Y, hY⟩ : ∃ Y, Y = Real.sin h * (t ^ 3 - (1 - t) ^ 3 + 3 * (1 - t) * t * (2 * t - 1)) -
    3 * a * Real.cos h * t * (1 - t) * (2 * t - 1) := ⟨_, rfl⟩
  have hx : x = Real.cos m * X - Real.sin m * Y := by
    rw [hX, hY]; simp only [x, Real.cos_add, Real.cos_sub, Real.sin_add, Real.sin_sub]; ring
  have hy : y = Real.sin m * X + Real.cos m * Y := by
    rw [hX, hY]; simp only [y, Real.cos_add, Real.cos_sub, Real.sin_add, Real.sin_sub]; ring
  have e1 : x ^ 2 + y ^ 2 = X ^ 2 + Y ^ 2 := by rw [hx, hy]; linear_combination (X ^ 2 + Y ^ 2) * hm
  rw [e1]
  clear_value a
  clear hx hy e1 x y
  generalize Real.sqrt (4 - Real.sin h ^ 2) = r at *
  generalize Real.sin h = s at *
  generalize Real.cos h = c at *
  obtain ⟨u, hu⟩ : ∃ u, u = 4 * t * (1 - t) := ⟨_, rfl⟩
  have hX' : X = c + 3 / 4 * a * s * u := by rw [hX, hu]; ring
  have hY' : Y ^ 2 = (1 - u) * (s + u * (s / 2 - 3 / 4 * a * c)) ^ 2 := by rw [hY, hu]; ring
  rw [hX', hY', ← hu, ha]
  linear_combination hs + u ^ 2 * s ^ 2 / 4 * ((r - c) ^ 2 * hs + hr - hs)

theorem step_small {s c : ℝ} (hs : s ^ 2 + c ^ 2 = 1) (hc : 0 < c) (h : |s| ≤ 0.197) :
    (s / 2 * (1 - (Real.sqrt (4 - s ^ 2) - c) * c)) ^ 2 ≤ 1 / 1000000 := by
  have hs2 : s ^ 2 ≤ 0.197 ^ 2 := by rw [← sq_abs]; gcongr
  have h4 : (0 : ℝ) ≤ 4 - s ^ 2 := by nlinarith
  have hr := Real.sq_sqrt h4
  have hr0 := Real.sqrt_nonneg (4 - s ^ 2)
  generalize Real.sqrt (4 - s ^ 2) = r at *
  have hc1 : c ≤ 1 := by nlinarith [sq_nonneg s]
  have hc2 : 0.98 ≤ c := by nlinarith
  have hr1 : r ≤ 2 := by nlinarith [sq_nonneg s]
  have hr2 : 1.99 ≤ r := by nlinarith
  obtain ⟨g, hg⟩ : ∃ g, g = 1 - (r - c) * c := ⟨_, rfl⟩
  have key : g * (1 + c ^ 2 + r * c) = s ^ 2 := by
    rw [hg]; linear_combination (-c ^ 2) * hr + (c ^ 2 - 1) * hs
  rw [← hg]
  have hd : 3.9 ≤ 1 + c ^ 2 + r * c := by nlinarith
  have hg0 : 0 ≤ g := by
    by_contra hneg
    have : g * (1 + c ^ 2 + r * c) < 0 := mul_neg_of_neg_of_pos (not_le.1 hneg) (by linarith)
    nlinarith [sq_nonneg s]
  have hg1 : 3.9 * g ≤ s ^ 2 := by rw [← key]; nlinarith
  have hg2 : g ≤ 0.00996 := by linarith
  have : (s / 2 * g) ^ 2 = s ^ 2 * g ^ 2 / 4 := by ring
  rw [this]
  have h5 : g ^ 2 ≤ 0.00996 ^ 2 := by gcongr
  have h6 : s ^ 2 * g ^ 2 ≤ 0.197 ^ 2 * 0.00996 ^ 2 := mul_le_mul hs2 h5 (sq_nonneg _) (by norm_num)
  linarith

/-! ### One cubic on an ellipse -/

/-- A point of the ellipse's plane from its coordinates in units of the radii. -/
noncomputable def Spec.Ellipse.img (e : Ellipse) (x y : ℝ) : ℝ × ℝ :=
  (e.cx + e.ra * x * Real.cos e.rot - e.rb * y * Real.sin e.rot, e.cy + e.ra * x * Real.sin e.rot + e.rb * y * Real.cos e.rot)

theorem level_img (e : Ellipse) (ha : e.ra ≠ 0) (hb : e.rb ≠ 0) (x y : ℝ) : e.level (e.img x y) = x ^ 2 + y ^ 2 := by
  have hs := Real.sin_sq_add_cos_sq e.rot
  simp only [Ellipse.level, Ellipse.along, Ellipse.img]
  have h1 : (e.cx + e.ra * x * Real.cos e.rot - e.rb * y * Real.sin e.rot - e.cx) * Real.cos e.rot +
      (e.cy + e.ra * x * Real.sin e.rot + e.rb * y * Real.cos e.rot - e.cy) * Real.sin e.rot = e.ra * x := by
    linear_combination e.ra * x * hs
  have h2 : -(e.cx + e.ra * x * Real.cos e.rot - e.rb * y * Real.sin e.rot - e.cx) * Real.sin e.rot +
      (e.cy + e.ra * x * Real.sin e.rot + e.rb * y * Real.cos e.rot - e.cy) * Real.cos e.rot = e.rb * y := by
    linear_combination e.rb * y * hs
  rw [h1, h2]
  field_simp

/-- The cubic for the step from `η` to `η + θ`. -/
noncomputable def piece (e : Ellipse) (α η θ : ℝ) : Cubic :=
  ⟨e.point η, e.point η + α • e.tangent η, e.point (η + θ) - α • e.tangent (η + θ), e.point (η + θ)⟩

theorem piece_at (e : Ellipse) (α η θ t : ℝ) : (piece e α η θ).at t = e.img
    ((1 - t) ^ 3 * Real.cos η + 3 * (1 - t) ^ 2 * t * (Real.cos η + α * -Real.sin η) +
      3 * (1 - t) * t ^ 2 * (Real.cos (η + θ) - α * -Real.sin (η + θ)) + t ^ 3 * Real.cos (η + θ))
    ((1 - t) ^ 3 * Real.sin η + 3 * (1 - t) ^ 2 * t * (Real.sin η + α * Real.cos η) +
      3 * (1 - t) * t ^ 2 * (Real.sin (η + θ) - α * Real.cos (η + θ)) + t ^ 3 * Real.sin (η + θ)) := by
  simp only [piece, Cubic.at, Ellipse.img, Ellipse.point, Ellipse.tangent, Prod.smul_mk, Prod.mk_add_mk, Prod.mk_sub_mk,
    smul_eq_mul, Prod.mk.injEq]
  constructor <;> ring

theorem piece_near (e : Ellipse) (ha : e.ra ≠ 0) (hb : e.rb ≠ 0) (η θ t : ℝ) (hθ : |θ| ≤ 0.394) (h0 : 0 ≤ t) (h1 : t ≤ 1) :
    1 - 1 / 1000000 ≤ e.level ((piece e (alphaOf θ) η θ).at t) ∧ e.level ((piece e (alphaOf θ) η θ).at t) ≤ 1 := by
  have hpi := Real.pi_gt_three
  have hh : |θ / 2| ≤ 0.197 := by rw [abs_div, abs_two]; linarith
  have hs : |Real.sin (θ / 2)| ≤ 0.197 := (Real.abs_sin_le_abs).trans hh
  have hc : 0 < Real.cos (θ / 2) := by
    apply Real.cos_pos_of_mem_Ioo
    obtain ⟨g1, g2⟩ := abs_le.1 hθ
    constructor <;> linarith
  have key := circle_level hc (η + θ / 2) t
  simp only [show 2 * (θ / 2) = θ by ring, show η + θ / 2 - θ / 2 = η by ring, show η + θ / 2 + θ / 2 = η + θ by ring] at key
  rw [piece_at, level_img e ha hb, key]
  have hb := step_small (Real.sin_sq_add_cos_sq (θ / 2)) hc hs
  have hb0 := sq_nonneg (Real.sin (θ / 2) / 2 * (1 - (Real.sqrt (4 - Real.sin (θ / 2) ^ 2) - Real.cos (θ / 2)) * Real.cos (θ / 2)))
  clear key
  generalize (Real.sin (θ / 2) / 2 * (1 - (Real.sqrt (4 - Real.sin (θ / 2) ^ 2) - Real.cos (θ / 2)) * Real.cos (θ / 2))) ^ 2 = b at *
  have hu0 : 0 ≤ 4 * t * (1 - t) := by nlinarith
  have hu1 : 4 * t * (1 - t) ≤ 1 := by nlinarith [sq_nonneg (2 * t - 1)]
  have hu3 : (4 * t * (1 - t)) ^ 3 ≤ 1 := pow_le_one₀ hu0 hu1
  have hu4 : 0 ≤ (4 * t * (1 - t)) ^ 3 := pow_nonneg hu0 3
  generalize (4 * t * (1 - t)) ^ 3 = v at *
  have h5 : v * b ≤ 1 * b := mul_le_mul_of_nonneg_right hu3 hb0
  have h6 : 0 ≤ v * b := mul_nonneg hu4 hb0
  constructor <;> linarith

/-! ### The loop -/

/-- An operation for a cubic. -/
noncomputable def storeCubic (c : Cubic) : Op :=
  .cubicTo (toFixedP c.p1.1 c.p1.2) (toFixedP c.p2.1 c.p2.2) (toFixedP c.p3.1 c.p3.2)

/-- The cubics of the loop: `i` steps have been made, `n` remain, `p0` is the point reached. -/
noncomputable def cubics (e : Ellipse) (η θ α : ℝ) (stop : ℝ × ℝ) : Nat → Nat → ℝ × ℝ → List Cubic
  | 0, _, _ => []
  | n + 1, i, p0 =>
    let p3 := if n = 0 then stop else e.point (η + θ * (i + 1 : ℕ))
    ⟨p0, p0 + α • e.tangent (η + θ * i), p3 - α • e.tangent (η + θ * (i + 1 : ℕ)), p3⟩ :: cubics e η θ α stop n (i + 1) p3

theorem ellLoop_eq (p : ArcArgs ℝ) (cx cy rot η θ α : ℝ) (n : Nat) : ∀ (i : Nat) (lx ly : ℝ),
    let e := Ellipse.mk cx cy p.rx p.ry rot
    (ellLoop p cx cy (Real.sin rot) (Real.cos rot) η θ α n (i + 1) lx ly (e.tangent (η + θ * i)).1 (e.tangent (η + θ * i)).2).1
      = (cubics e η θ α (p.x, p.y) n i (lx, ly)).map storeCubic ∧
    (1 ≤ n → (ellLoop p cx cy (Real.sin rot) (Real.cos rot) η θ α n (i + 1) lx ly (e.tangent (η + θ * i)).1
      (e.tangent (η + θ * i)).2).2 = (p.x, p.y)) := by
  induction n with
  | zero => intro i lx ly e; exact ⟨rfl, by simp⟩
  | succ n ih =>
    intro i lx ly e
    have hpt : ∀ η, ellipsePointAt p.rx p.ry (Real.sin rot) (Real.cos rot) η cx cy = e.point η := fun η => ellipsePointAt_eq e η
    have hpr : ∀ η, ellipsePrime p.rx p.ry (Real.sin rot) (Real.cos rot) η cx cy = e.tangent η := fun η => ellipsePrime_eq e η
    obtain ⟨p3, hp3⟩ : ∃ p3 : ℝ × ℝ, p3 = if n = 0 then (p.x, p.y) else e.point (η + θ * (i + 1 : ℕ)) := ⟨_, rfl⟩
    have ih' := ih (i + 1) p3.1 p3.2
    simp only at ih'
    have hrun : ellLoop p cx cy (Real.sin rot) (Real.cos rot) η θ α (n + 1) (i + 1) lx ly (e.tangent (η + θ * i)).1
        (e.tangent (η + θ * i)).2 =
        let r := ellLoop p cx cy (Real.sin rot) (Real.cos rot) η θ α n (i + 1 + 1) p3.1 p3.2
          (e.tangent (η + θ * (i + 1 : ℕ))).1 (e.tangent (η + θ * (i + 1 : ℕ))).2
        (Op.cubicTo (toFixedP (lx + α * (e.tangent (η + θ * i)).1) (ly + α * (e.tangent (η + θ * i)).2))
          (toFixedP (p3.1 - α * (e.tangent (η + θ * (i + 1 : ℕ))).1) (p3.2 - α * (e.tangent (η + θ * (i + 1 : ℕ))).2))
          (toFixedP p3.1 p3.2) :: r.1, r.2) := by
      rw [ellLoop]
      simp only [real_add, real_mul, real_sub, real_ofInt, Int.cast_natCast, hpt, hpr]
      by_cases hn : n = 0
      · simp only [hn, if_true] at hp3 ⊢
        rw [hp3]
      · simp only [hn, if_false] at hp3 ⊢
        rw [hp3]
    rw [hrun]
    refine ⟨?_, fun _ => ?_⟩
    · rw [cubics]
      simp only [← hp3, List.map_cons]
      rw [ih'.1]
      rfl
    · simp only
      by_cases hn : n = 0
      · subst hn
        rw [if_pos rfl] at hp3
        simp only [ellLoop]
        rw [hp3]
      · exact ih'.2 (by omega)

/-- With the start and the end on the ellipse, the cubics are the pieces. -/
theorem cubics_pieces (e : Ellipse) (η θ α : ℝ) (n : Nat) : ∀ i : Nat,
    cubics e η θ α (e.point (η + θ * (i + n : ℕ))) n i (e.point (η + θ * i)) =
      (List.range' i n).map fun j : ℕ => piece e α (η + θ * j) θ := by
  induction n with
  | zero => intro i; rfl
  | succ n ih =>
    intro i
    rw [cubics, List.range'_succ, List.map_cons]
    have h3 : (if n = 0 then e.point (η + θ * (i + (n + 1) : ℕ)) else e.point (η + θ * (i + 1 : ℕ))) = e.point (η + θ * (i + 1 : ℕ)) := by
      split
      · rename_i h; rw [h]
      · rfl
    simp only [h3]
    rw [show i + (n + 1) = i + 1 + n by omega, ih (i + 1)]
    congr 1
    simp only [piece]
    rw [show η + θ * ↑(i + 1) = η + θ * ↑i + θ by push_cast; ring]

/-! ### The number of cubics -/

theorem arcSegs_spec {δ : ℝ} (h : |δ| ≤ 2 * Real.pi) : ∃ n : Nat, arcSegs δ = (n : Int) ∧ 1 ≤ n ∧ n ≤ 17 ∧ |δ| / n < Real.pi / 8 := by
  have hpi := Real.pi_pos
  obtain ⟨q, hq⟩ : ∃ q, q = |δ| / (Real.pi / 8) := ⟨_, rfl⟩
  have hq0 : 0 ≤ q := by rw [hq]; positivity
  have hq1 : q ≤ 16 := by rw [hq, div_le_iff₀ (by positivity)]; linarith
  have hf0 : 0 ≤ ⌊q⌋ := Int.floor_nonneg.2 hq0
  have hf1 : ⌊q⌋ ≤ 16 := by
    have : (⌊q⌋ : ℝ) ≤ 16 := (Int.floor_le q).trans hq1
    exact_mod_cast this
  have ht : truncR q = ⌊q⌋ := by unfold truncR; rw [if_pos hq0]
  have hi : (GoFloat.toInt q : ℤ) = ⌊q⌋ := by
    show (if -2 ^ 63 ≤ truncR q ∧ truncR q < 2 ^ 63 then truncR q else -2 ^ 63) = _
    rw [ht, if_pos ⟨by omega, by omega⟩]
  have hs : arcSegs δ = ⌊q⌋ + 1 := by
    unfold arcSegs
    have : (GoFloat.abs δ /. GoFloat.piMul (1 / 8) : ℝ) = q := by
      rw [hq]; simp only [real_abs, real_div, real_piMul]; norm_num; congr 1; ring
    rw [this, hi]
    unfold wrap64
    rw [Int.bmod_eq_of_le] <;> norm_num <;> omega
  refine ⟨(⌊q⌋ + 1).toNat, ?_, by omega, by omega, ?_⟩
  · rw [hs]; omega
  · have hn : (((⌊q⌋ + 1).toNat : ℕ) : ℝ) = ⌊q⌋ + 1 := by
      have : (((⌊q⌋ + 1).toNat : ℕ) : ℤ) = ⌊q⌋ + 1 := by omega
      exact_mod_cast this
    rw [hn]
    have hlt := Int.lt_floor_add_one q
    rw [div_lt_iff₀ (by linarith)]
    have : |δ| = q * (Real.pi / 8) := by rw [hq]; field_simp
    rw [this]
    nlinarith

end GoSvg
