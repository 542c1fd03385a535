import Verif.Lemmas.Real
import Verif.Spec.Ellipse
import Mathlib.Tactic.LinearCombination

/-! Ellipse geometry: the centre of an arc and its parameters, in exact arithmetic. -/

namespace GoSvg

open Spec

/-! ### The frame in which the ellipse is a circle -/

/-- Rotate by `-rot`, then stretch the first coordinate by `q`. -/
noncomputable def fr (q rot : ℝ) (x y : ℝ) : ℝ × ℝ :=
  ((x * Real.cos rot + y * Real.sin rot) * q, -x * Real.sin rot + y * Real.cos rot)

theorem through_iff {e : Ellipse} {q : ℝ} (ha : 0 < e.ra) (hb : 0 < e.rb) (hq : q * e.ra = e.rb) (x y : ℝ) :
    e.Through x y ↔ (fr q e.rot (x - e.cx) (y - e.cy)).1 ^ 2 + (fr q e.rot (x - e.cx) (y - e.cy)).2 ^ 2 = e.rb ^ 2 := by
  have hq' : q = e.rb / e.ra := by field_simp; exact hq
  simp only [Ellipse.Through, Ellipse.along, fr]
  rw [hq']
  generalize (x - e.cx) * Real.cos e.rot + (y - e.cy) * Real.sin e.rot = u
  generalize -(x - e.cx) * Real.sin e.rot + (y - e.cy) * Real.cos e.rot = v
  have : (u * (e.rb / e.ra)) ^ 2 + v ^ 2 = e.rb ^ 2 * ((u / e.ra) ^ 2 + (v / e.rb) ^ 2) := by field_simp
  rw [this]
  constructor
  · intro h; rw [h]; ring
  · intro h
    have hb2 : e.rb ^ 2 ≠ 0 := by positivity
    exact mul_left_cancel₀ hb2 (by rw [h]; ring)

theorem fr_sub (q rot x y x' y' : ℝ) : fr q rot (x - x') (y - y') =
    ((fr q rot x y).1 - (fr q rot x' y').1, (fr q rot x y).2 - (fr q rot x' y').2) := by
  simp only [fr, Prod.mk.injEq]; constructor <;> ring

theorem fr_inj {q rot x y x' y' : ℝ} (hq : q ≠ 0) (h : fr q rot x y = fr q rot x' y') : x = x' ∧ y = y' := by
  simp only [fr, Prod.mk.injEq] at h
  obtain ⟨h1, h2⟩ := h
  have h1 := mul_right_cancel₀ hq h1
  have hs := Real.sin_sq_add_cos_sq rot
  constructor
  · linear_combination Real.cos rot * h1 - Real.sin rot * h2 + (x' - x) * hs
  · linear_combination Real.sin rot * h1 + Real.cos rot * h2 + (y' - y) * hs

/-! ### The centre -/

/-- Half the chord in the frame. -/
noncomputable def halfChord (ra rb rot x0 y0 x y : ℝ) : ℝ × ℝ :=
  let n := fr (rb / ra) rot (x - x0) (y - y0)
  (n.1 / 2, n.2 / 2)

noncomputable def sq (p : ℝ × ℝ) : ℝ := p.1 * p.1 + p.2 * p.2

section Centre
variable {ra rb rot x0 y0 x y : ℝ}

theorem halfChord_pos (ha : 0 < ra) (hb : 0 < rb) (hne : (x0, y0) ≠ (x, y)) : 0 < sq (halfChord ra rb rot x0 y0 x y) := by
  have hq : rb / ra ≠ 0 := (div_pos hb ha).ne'
  set m := halfChord ra rb rot x0 y0 x y with hm
  rcases lt_or_eq_of_le (add_nonneg (mul_self_nonneg _) (mul_self_nonneg _) : 0 ≤ sq m) with h | h
  · exact h
  · exfalso
    have h1 : m.1 = 0 := by nlinarith [mul_self_nonneg m.1, mul_self_nonneg m.2]
    have h2 : m.2 = 0 := by nlinarith [mul_self_nonneg m.1, mul_self_nonneg m.2]
    simp only [hm, halfChord] at h1 h2
    have : fr (rb / ra) rot (x - x0) (y - y0) = fr (rb / ra) rot 0 0 := by
      apply Prod.ext
      · simp only [fr] at h1 ⊢; linarith
      · simp only [fr] at h2 ⊢; linarith
    obtain ⟨e1, e2⟩ := fr_inj hq this
    exact hne (by rw [Prod.mk.injEq]; constructor <;> linarith)

/-- What the code computes: the factor and the centre in the frame. -/
noncomputable def scaleOf (ra rb rot x0 y0 x y : ℝ) : ℝ :=
  let L := sq (halfChord ra rb rot x0 y0 x y)
  if rb * rb < L then Real.sqrt L / rb else 1

noncomputable def hrOf (ra rb rot x0 y0 x y : ℝ) : ℝ :=
  let L := sq (halfChord ra rb rot x0 y0 x y)
  if rb * rb < L then 0 else Real.sqrt (rb * rb - L) / Real.sqrt L

/-- `s` is 1 or -1: the side of the chord. -/
noncomputable def centreFr (s ra rb rot x0 y0 x y : ℝ) : ℝ × ℝ :=
  let m := halfChord ra rb rot x0 y0 x y
  let h := hrOf ra rb rot x0 y0 x y
  (m.1 + s * (m.2 * h), m.2 - s * (m.1 * h))

theorem hr_spec (hb : 0 < rb) (hL : 0 < sq (halfChord ra rb rot x0 y0 x y)) :
    0 ≤ hrOf ra rb rot x0 y0 x y ∧ 1 ≤ scaleOf ra rb rot x0 y0 x y ∧
    sq (halfChord ra rb rot x0 y0 x y) * (1 + hrOf ra rb rot x0 y0 x y ^ 2) = (scaleOf ra rb rot x0 y0 x y * rb) ^ 2 ∧
    (scaleOf ra rb rot x0 y0 x y = 1 ∨ (scaleOf ra rb rot x0 y0 x y * rb) ^ 2 = sq (halfChord ra rb rot x0 y0 x y)) := by
  unfold hrOf scaleOf
  set L := sq (halfChord ra rb rot x0 y0 x y)
  dsimp only
  by_cases h : rb * rb < L
  · simp only [h, if_true]
    have e : Real.sqrt L / rb * rb = Real.sqrt L := by field_simp
    refine ⟨le_refl _, ?_, ?_, Or.inr ?_⟩
    · rw [le_div_iff₀ hb, one_mul]
      exact Real.le_sqrt_of_sq_le (by rw [pow_two]; exact h.le)
    · rw [e, Real.sq_sqrt hL.le]; ring
    · rw [e, Real.sq_sqrt hL.le]
  · simp only [h, if_false]
    have h' : 0 ≤ rb * rb - L := by linarith [not_lt.1 h]
    refine ⟨by positivity, le_refl _, ?_, Or.inl trivial⟩
    rw [div_pow, Real.sq_sqrt h', Real.sq_sqrt hL.le]
    field_simp; ring

/-- The code's result in terms of the frame. -/
theorem findEllipseCenter_eq (ha : 0 < ra) (hb : 0 < rb) (hne : (x0, y0) ≠ (x, y)) (sweep small : Bool) :
    let c := findEllipseCenter ra rb rot x0 y0 x y sweep small
    let k := scaleOf ra rb rot x0 y0 x y
    c.ra = k * ra ∧ c.rb = k * rb ∧
    fr (rb / ra) rot (c.cx - x0) (c.cy - y0) =
      centreFr (if (sweep && small) || (!sweep && !small) then 1 else -1) ra rb rot x0 y0 x y := by
  intro c k
  have hL := halfChord_pos (rot := rot) ha hb hne
  have hm1 : halfChord ra rb rot x0 y0 x y =
      (((x - x0) * Real.cos rot + (y - y0) * Real.sin rot) * (rb / ra) / 2,
        (-(x - x0) * Real.sin rot + (y - y0) * Real.cos rot) / 2) := rfl
  have key : ∀ (ra' rb' hr : ℝ), 0 < ra' → 0 < rb' → ra' * rb = ra * rb' → ∀ s : ℝ, ∀ m : ℝ × ℝ,
      fr (rb / ra) rot
        ((m.1 + s * (m.2 * hr)) * (ra' / rb') * Real.cos rot - (m.2 - s * (m.1 * hr)) * Real.sin rot + x0 - x0)
        ((m.1 + s * (m.2 * hr)) * (ra' / rb') * Real.sin rot + (m.2 - s * (m.1 * hr)) * Real.cos rot + y0 - y0)
      = (m.1 + s * (m.2 * hr), m.2 - s * (m.1 * hr)) := by
    intro ra' rb' hr h1 h2 h3 s m
    generalize hcx : m.1 + s * (m.2 * hr) = cx
    generalize hcy : m.2 - s * (m.1 * hr) = cy
    have hs := Real.sin_sq_add_cos_sq rot
    have hr' : ra' / rb' * (rb / ra) = 1 := by field_simp; linarith
    simp only [fr, Prod.mk.injEq]
    constructor
    · have : ((cx * (ra' / rb') * Real.cos rot - cy * Real.sin rot + x0 - x0) * Real.cos rot +
          (cx * (ra' / rb') * Real.sin rot + cy * Real.cos rot + y0 - y0) * Real.sin rot) * (rb / ra)
          = cx * (ra' / rb' * (rb / ra)) * (Real.sin rot ^ 2 + Real.cos rot ^ 2) := by ring
      rw [this, hr', hs]; ring
    · linear_combination cy * hs
  simp only [c, k, findEllipseCenter, scaleOf, centreFr, hrOf]
  rw [hm1] at hL ⊢
  simp only [real_add, real_sub, real_mul, real_div, real_neg, real_cos, real_sin, real_sqrt, real_num, sq] at *
  norm_num only [Rat.cast_ofNat, Rat.cast_zero] at *
  generalize ((x - x0) * Real.cos rot + (y - y0) * Real.sin rot) * (rb / ra) / 2 = m1 at *
  generalize (-(x - x0) * Real.sin rot + (y - y0) * Real.cos rot) / 2 = m2 at *
  by_cases h : rb * rb < m1 * m1 + m2 * m2
  · have hs : 0 < Real.sqrt (m1 * m1 + m2 * m2) := Real.sqrt_pos.2 hL
    have hra : (if GoFloat.eq ra rb then Real.sqrt (m1 * m1 + m2 * m2) else ra * Real.sqrt (m1 * m1 + m2 * m2) / rb)
        = Real.sqrt (m1 * m1 + m2 * m2) / rb * ra := by
      split
      · rename_i he; rw [real_eq] at he; rw [he]; field_simp
      · field_simp
    simp only [(real_lt _ _).2 h, h, if_true]
    rw [hra]
    refine ⟨rfl, by field_simp, ?_⟩
    have := key (Real.sqrt (m1 * m1 + m2 * m2) / rb * ra) (Real.sqrt (m1 * m1 + m2 * m2)) 0 (by positivity) hs (by field_simp)
    split
    · have := this 1 (m1, m2); simp only [one_mul] at this ⊢; exact this
    · have := this (-1) (m1, m2); simp only [neg_mul, one_mul, ← sub_eq_add_neg, sub_neg_eq_add] at this ⊢; exact this
  · have hf : GoFloat.lt (rb * rb) (m1 * m1 + m2 * m2) = false := (real_lt_false _ _).2 (not_lt.1 h)
    simp only [hf, h, if_false, one_mul, Bool.false_eq_true]
    refine ⟨trivial, trivial, ?_⟩
    have := key ra rb (Real.sqrt (rb * rb - (m1 * m1 + m2 * m2)) / Real.sqrt (m1 * m1 + m2 * m2)) ha hb rfl
    split
    · have := this 1 (m1, m2); simp only [one_mul] at this ⊢; exact this
    · have := this (-1) (m1, m2); simp only [neg_mul, one_mul, ← sub_eq_add_neg, sub_neg_eq_add] at this ⊢; exact this


/-- A centre for which both points are on the ellipse, seen in the frame. -/
theorem through_both_iff {k : ℝ} (ha : 0 < ra) (hb : 0 < rb) (hk : 0 < k) (cx cy : ℝ) :
    let c := fr (rb / ra) rot (cx - x0) (cy - y0)
    let m := halfChord ra rb rot x0 y0 x y
    ((Ellipse.mk cx cy (k * ra) (k * rb) rot).Through x0 y0 ∧ (Ellipse.mk cx cy (k * ra) (k * rb) rot).Through x y) ↔
      (c.1 ^ 2 + c.2 ^ 2 = (k * rb) ^ 2 ∧ (2 * m.1 - c.1) ^ 2 + (2 * m.2 - c.2) ^ 2 = (k * rb) ^ 2) := by
  intro c m
  have hq : rb / ra * (k * ra) = k * rb := by field_simp
  rw [through_iff (q := rb / ra) (mul_pos hk ha) (mul_pos hk hb) hq, through_iff (q := rb / ra) (mul_pos hk ha) (mul_pos hk hb) hq]
  simp only
  have h1 : fr (rb / ra) rot (x0 - cx) (y0 - cy) = (-c.1, -c.2) := by
    simp only [c, fr, Prod.mk.injEq]; constructor <;> ring
  have h2 : fr (rb / ra) rot (x - cx) (y - cy) = (2 * m.1 - c.1, 2 * m.2 - c.2) := by
    simp only [c, m, halfChord, fr, Prod.mk.injEq]; constructor <;> ring
  rw [h1, h2]
  simp only [neg_sq]

theorem centreFr_circle {s : ℝ} (hs : s ^ 2 = 1) (hb : 0 < rb) (hL : 0 < sq (halfChord ra rb rot x0 y0 x y)) :
    let c := centreFr s ra rb rot x0 y0 x y
    let m := halfChord ra rb rot x0 y0 x y
    let k := scaleOf ra rb rot x0 y0 x y
    c.1 ^ 2 + c.2 ^ 2 = (k * rb) ^ 2 ∧ (2 * m.1 - c.1) ^ 2 + (2 * m.2 - c.2) ^ 2 = (k * rb) ^ 2 := by
  intro c m k
  obtain ⟨-, -, h, -⟩ := hr_spec hb hL
  change _ = (k * rb) ^ 2 at h
  rw [← h]
  simp only [c, centreFr, sq]
  generalize hrOf ra rb rot x0 y0 x y = t
  change _ = (m.1 * m.1 + m.2 * m.2) * _ ∧ _ = (m.1 * m.1 + m.2 * m.2) * _
  change (m.1 + s * (m.2 * t)) ^ 2 + (m.2 - s * (m.1 * t)) ^ 2 = _ ∧ (2 * m.1 - (m.1 + s * (m.2 * t))) ^ 2 + (2 * m.2 - (m.2 - s * (m.1 * t))) ^ 2 = _
  constructor
  · linear_combination (m.1 ^ 2 + m.2 ^ 2) * t ^ 2 * hs
  · linear_combination (m.1 ^ 2 + m.2 ^ 2) * t ^ 2 * hs

/-- A fitting ellipse is at least as large as half the chord. -/
theorem fits_bound {k : ℝ} (ha : 0 < ra) (hb : 0 < rb) (hk : 0 < k) (h : Fits (k * ra) (k * rb) rot x0 y0 x y) :
    sq (halfChord ra rb rot x0 y0 x y) ≤ (k * rb) ^ 2 := by
  obtain ⟨cx, cy, h⟩ := h
  obtain ⟨h1, h2⟩ := (through_both_iff ha hb hk cx cy).1 h
  unfold sq
  nlinarith [sq_nonneg ((halfChord ra rb rot x0 y0 x y).1 - (fr (rb / ra) rot (cx - x0) (cy - y0)).1),
    sq_nonneg ((halfChord ra rb rot x0 y0 x y).2 - (fr (rb / ra) rot (cx - x0) (cy - y0)).2)]

theorem centre_through (ha : 0 < ra) (hb : 0 < rb) (hne : (x0, y0) ≠ (x, y)) (sweep small : Bool) :
    let c := findEllipseCenter ra rb rot x0 y0 x y sweep small
    (Ellipse.mk c.cx c.cy c.ra c.rb rot).Through x0 y0 ∧ (Ellipse.mk c.cx c.cy c.ra c.rb rot).Through x y := by
  intro c
  obtain ⟨h1, h2, h3⟩ := findEllipseCenter_eq (rot := rot) ha hb hne sweep small
  have hL := halfChord_pos (rot := rot) ha hb hne
  have hk := (hr_spec hb hL).2.1
  change c.ra = _ at h1
  change c.rb = _ at h2
  change fr _ _ (c.cx - _) (c.cy - _) = _ at h3
  rw [h1, h2]
  apply (through_both_iff ha hb (by linarith) c.cx c.cy).2
  rw [h3]
  apply centreFr_circle _ hb hL
  split <;> norm_num

theorem scaleOf_least (ha : 0 < ra) (hb : 0 < rb) (hne : (x0, y0) ≠ (x, y)) :
    LeastScale ra rb rot x0 y0 x y (scaleOf ra rb rot x0 y0 x y) := by
  have hL := halfChord_pos (rot := rot) ha hb hne
  obtain ⟨-, h2, -, h4⟩ := hr_spec hb hL
  refine ⟨h2, ?_, ?_⟩
  · obtain ⟨e1, e2, -⟩ := findEllipseCenter_eq (rot := rot) ha hb hne true true
    have := centre_through (rot := rot) ha hb hne true true
    simp only at this
    rw [e1, e2] at this
    exact ⟨_, _, this⟩
  · intro k' hk' hf
    rcases h4 with h4 | h4
    · rw [h4]; exact hk'
    · have := fits_bound ha hb (by linarith) hf
      rw [← h4] at this
      have h5 : 0 < k' * rb := by positivity
      have h6 := abs_le_of_sq_le_sq this h5.le
      have h7 := (abs_le.1 h6).2
      nlinarith

/-- Every centre of a fitting ellipse of the chosen size is one of the two. -/
theorem centre_unique (ha : 0 < ra) (hb : 0 < rb) (hne : (x0, y0) ≠ (x, y)) (cx cy : ℝ)
    (h1 : (Ellipse.mk cx cy (scaleOf ra rb rot x0 y0 x y * ra) (scaleOf ra rb rot x0 y0 x y * rb) rot).Through x0 y0)
    (h2 : (Ellipse.mk cx cy (scaleOf ra rb rot x0 y0 x y * ra) (scaleOf ra rb rot x0 y0 x y * rb) rot).Through x y) :
    fr (rb / ra) rot (cx - x0) (cy - y0) = centreFr 1 ra rb rot x0 y0 x y ∨
    fr (rb / ra) rot (cx - x0) (cy - y0) = centreFr (-1) ra rb rot x0 y0 x y := by
  have hL := halfChord_pos (rot := rot) ha hb hne
  obtain ⟨g1, g2, g3, -⟩ := hr_spec hb hL
  obtain ⟨e1, e2⟩ := (through_both_iff ha hb (by linarith) cx cy).1 ⟨h1, h2⟩
  rw [← g3] at e1 e2
  simp only [centreFr]
  generalize hrOf ra rb rot x0 y0 x y = t at *
  generalize halfChord ra rb rot x0 y0 x y = m at *
  generalize fr (rb / ra) rot (cx - x0) (cy - y0) = c at *
  obtain ⟨m1, m2⟩ := m
  obtain ⟨c1, c2⟩ := c
  simp only [sq, Prod.mk.injEq] at *
  -- c·m = |m|²
  have d : c1 * m1 + c2 * m2 = m1 * m1 + m2 * m2 := by linarith
  -- the component along the perpendicular
  set w := c1 * m2 - c2 * m1 with hw
  have hw2 : w ^ 2 = (t * (m1 * m1 + m2 * m2)) ^ 2 := by
    have : w ^ 2 + (c1 * m1 + c2 * m2) ^ 2 = (c1 ^ 2 + c2 ^ 2) * (m1 * m1 + m2 * m2) := by rw [hw]; ring
    rw [d, e1] at this
    linear_combination this
  have hc1 : c1 * (m1 * m1 + m2 * m2) = m1 * (m1 * m1 + m2 * m2) + w * m2 := by
    rw [hw]; linear_combination m1 * d
  have hc2 : c2 * (m1 * m1 + m2 * m2) = m2 * (m1 * m1 + m2 * m2) - w * m1 := by
    rw [hw]; linear_combination m2 * d
  rcases sq_eq_sq_iff_eq_or_eq_neg.1 hw2 with hw' | hw'
  · left
    rw [hw'] at hc1 hc2
    constructor
    · apply mul_right_cancel₀ hL.ne'; rw [hc1]; ring
    · apply mul_right_cancel₀ hL.ne'; rw [hc2]; ring
  · right
    rw [hw'] at hc1 hc2
    constructor
    · apply mul_right_cancel₀ hL.ne'; rw [hc1]; ring
    · apply mul_right_cancel₀ hL.ne'; rw [hc2]; ring

end Centre

/-! ### Parameters -/

/-- `ellipsePointAt` and `ellipsePrime` are the point and the tangent of the ellipse. -/
theorem ellipsePointAt_eq (e : Ellipse) (η : ℝ) :
    ellipsePointAt e.ra e.rb (Real.sin e.rot) (Real.cos e.rot) η e.cx e.cy = e.point η := by
  simp [ellipsePointAt, Ellipse.point]

theorem ellipsePrime_eq (e : Ellipse) (η : ℝ) :
    ellipsePrime e.ra e.rb (Real.sin e.rot) (Real.cos e.rot) η e.cx e.cy = e.tangent η := by
  simp [ellipsePrime, Ellipse.tangent]

theorem point_through (e : Ellipse) (ha : e.ra ≠ 0) (hb : e.rb ≠ 0) (η : ℝ) :
    e.Through (e.point η).1 (e.point η).2 := by
  have hs := Real.sin_sq_add_cos_sq e.rot
  have hs' := Real.sin_sq_add_cos_sq η
  simp only [Ellipse.Through, Ellipse.along, Ellipse.point]
  have h1 : (e.cx + e.ra * Real.cos η * Real.cos e.rot - e.rb * Real.sin η * Real.sin e.rot - e.cx) * Real.cos e.rot +
      (e.cy + e.ra * Real.cos η * Real.sin e.rot + e.rb * Real.sin η * Real.cos e.rot - e.cy) * Real.sin e.rot
      = e.ra * Real.cos η := by
    linear_combination e.ra * Real.cos η * hs
  have h2 : -(e.cx + e.ra * Real.cos η * Real.cos e.rot - e.rb * Real.sin η * Real.sin e.rot - e.cx) * Real.sin e.rot +
      (e.cy + e.ra * Real.cos η * Real.sin e.rot + e.rb * Real.sin η * Real.cos e.rot - e.cy) * Real.cos e.rot
      = e.rb * Real.sin η := by
    linear_combination e.rb * Real.sin η * hs
  rw [h1, h2]
  field_simp
  linarith

/-- The parameter the code computes for a point. -/
noncomputable def etaOf (e : Ellipse) (x y : ℝ) : ℝ :=
  let a := Complex.arg ⟨x - e.cx, y - e.cy⟩ - e.rot
  Complex.arg ⟨Real.cos a / e.ra, Real.sin a / e.rb⟩

theorem etaOf_range (e : Ellipse) (x y : ℝ) : -Real.pi < etaOf e x y ∧ etaOf e x y ≤ Real.pi :=
  ⟨Complex.neg_pi_lt_arg _, Complex.arg_le_pi _⟩

theorem etaOf_spec (e : Ellipse) {x y : ℝ} (h : e.Through x y) :
    Real.cos (etaOf e x y) = (e.along x y).1 / e.ra ∧ Real.sin (etaOf e x y) = (e.along x y).2 / e.rb := by
  set z : ℂ := ⟨x - e.cx, y - e.cy⟩ with hz
  have hz0 : z ≠ 0 := by
    intro h0
    have h1 : x - e.cx = 0 := congrArg Complex.re h0
    have h2 : y - e.cy = 0 := congrArg Complex.im h0
    simp only [Ellipse.Through, Ellipse.along, h1, h2] at h
    norm_num at h
  have hn : 0 < ‖z‖ := norm_pos_iff.2 hz0
  have hc : Real.cos z.arg * ‖z‖ = x - e.cx := by
    rw [Complex.cos_arg hz0]; field_simp; rfl
  have hs : Real.sin z.arg * ‖z‖ = y - e.cy := by
    rw [Complex.sin_arg]; field_simp; rfl
  have h1 : Real.cos (z.arg - e.rot) = (e.along x y).1 / ‖z‖ := by
    rw [Real.cos_sub, eq_div_iff hn.ne']
    simp only [Ellipse.along]
    rw [← hc, ← hs]; ring
  have h2 : Real.sin (z.arg - e.rot) = (e.along x y).2 / ‖z‖ := by
    rw [Real.sin_sub, eq_div_iff hn.ne']
    simp only [Ellipse.along]
    rw [← hc, ← hs]; ring
  have h3 : etaOf e x y = Complex.arg ⟨(e.along x y).1 / e.ra, (e.along x y).2 / e.rb⟩ := by
    unfold etaOf
    simp only
    rw [← hz, h1, h2]
    have : (⟨(e.along x y).1 / ‖z‖ / e.ra, (e.along x y).2 / ‖z‖ / e.rb⟩ : ℂ)
        = ((‖z‖⁻¹ : ℝ) : ℂ) * ⟨(e.along x y).1 / e.ra, (e.along x y).2 / e.rb⟩ := by
      apply Complex.ext
      · simp; ring
      · simp; ring
    rw [this, Complex.arg_real_mul _ (by positivity)]
  set w : ℂ := ⟨(e.along x y).1 / e.ra, (e.along x y).2 / e.rb⟩ with hw
  have hnw : ‖w‖ = 1 := by
    have : ‖w‖ ^ 2 = 1 := by
      rw [← Complex.normSq_eq_norm_sq, Complex.normSq_apply]
      simp only [Ellipse.Through] at h
      simp only [hw]
      linarith
    have h0 := norm_nonneg w
    nlinarith
  have hw0 : w ≠ 0 := by intro h0; rw [h0] at hnw; simp at hnw
  rw [h3]
  refine ⟨?_, ?_⟩
  · rw [Complex.cos_arg hw0, hnw, div_one]
  · rw [Complex.sin_arg, hnw, div_one]

theorem point_of_cos_sin (e : Ellipse) (ha : e.ra ≠ 0) (hb : e.rb ≠ 0) {x y η : ℝ} (h1 : Real.cos η = (e.along x y).1 / e.ra)
    (h2 : Real.sin η = (e.along x y).2 / e.rb) : e.point η = (x, y) := by
  have hs := Real.sin_sq_add_cos_sq e.rot
  have e1 : e.ra * Real.cos η = (e.along x y).1 := by rw [h1]; field_simp
  have e2 : e.rb * Real.sin η = (e.along x y).2 := by rw [h2]; field_simp
  simp only [Ellipse.point, Prod.mk.injEq]
  rw [e1, e2]
  simp only [Ellipse.along]
  constructor
  · linear_combination (x - e.cx) * hs
  · linear_combination (y - e.cy) * hs

/-! ### The angle spanned -/

/-- Lines 164-177 in exact arithmetic: the difference of the parameters, moved by full turns into the half line asked
for. -/
theorem arcDeltaEta_real (p : ArcArgs ℝ) (cx cy px py : ℝ) :
    let e := Ellipse.mk cx cy p.rx p.ry (p.rot * Real.pi / 180)
    (arcDeltaEta p cx cy px py).1 = etaOf e px py ∧
    (∃ n : ℤ, (arcDeltaEta p cx cy px py).2 = etaOf e p.x p.y - etaOf e px py + n * (2 * Real.pi)) ∧
    (if p.sweep ≠ 0 then 0 ≤ (arcDeltaEta p cx cy px py).2 ∧ (arcDeltaEta p cx cy px py).2 < 2 * Real.pi
      else -(2 * Real.pi) ≤ (arcDeltaEta p cx cy px py).2 ∧ (arcDeltaEta p cx cy px py).2 < 0) := by
  intro e
  have h1 := etaOf_range e px py
  have h2 := etaOf_range e p.x p.y
  have hpi := Real.pi_pos
  refine ⟨?_, ?_⟩
  · simp [arcDeltaEta, etaOf, e]
  · have step1 : ∀ d : ℝ, -(2 * Real.pi) < d → d < 2 * Real.pi → ∀ b : Bool,
        let d' := if b then (if GoFloat.lt d 0 then d + 2 * Real.pi else d - 2 * Real.pi) else d
        (∃ n : ℤ, d' = d + n * (2 * Real.pi)) ∧ -(2 * Real.pi) ≤ d' ∧ d' < 2 * Real.pi := by
      intro d h1 h2 b d'
      cases b with
      | false => exact ⟨⟨0, by simp [d']⟩, h1.le, h2⟩
      | true =>
        by_cases h : d < 0
        · have e : d' = d + 2 * Real.pi := by simp only [d', if_true]; rw [if_pos ((real_lt _ _).2 h)]
          rw [e]; exact ⟨⟨1, by push_cast; ring⟩, by linarith, by linarith⟩
        · have e : d' = d - 2 * Real.pi := by
            simp only [d', if_true]; rw [if_neg (fun hh => h ((real_lt _ _).1 hh))]
          rw [e]; exact ⟨⟨-1, by push_cast; ring⟩, by linarith [not_lt.1 h], by linarith⟩
    have step2 : ∀ d : ℝ, -(2 * Real.pi) ≤ d → d < 2 * Real.pi →
        let d' := if GoFloat.lt d 0 && !GoFloat.eq p.sweep 0 then d + 2 * Real.pi
          else if GoFloat.le 0 d && !(!GoFloat.eq p.sweep 0) then d - 2 * Real.pi else d
        (∃ n : ℤ, d' = d + n * (2 * Real.pi)) ∧
        (if p.sweep ≠ 0 then 0 ≤ d' ∧ d' < 2 * Real.pi else -(2 * Real.pi) ≤ d' ∧ d' < 0) := by
      intro d h1 h2 d'
      by_cases hs : p.sweep = 0
      · have es : GoFloat.eq p.sweep 0 = true := (real_eq _ _).2 hs
        rw [if_neg (not_not.2 hs)]
        by_cases h : d < 0
        · have e : d' = d := by
            simp only [d', es, (real_le_false 0 d).2 h]; simp
          rw [e]; exact ⟨⟨0, by simp⟩, h1, h⟩
        · have e : d' = d - 2 * Real.pi := by
            simp only [d', es, (real_le 0 d).2 (not_lt.1 h)]; simp
          rw [e]; exact ⟨⟨-1, by push_cast; ring⟩, by linarith [not_lt.1 h], by linarith⟩
      · have es : GoFloat.eq p.sweep 0 = false := (real_eq_false _ _).2 hs
        rw [if_pos hs]
        by_cases h : d < 0
        · have e : d' = d + 2 * Real.pi := by
            simp only [d', es, (real_lt d 0).2 h]; simp
          rw [e]; exact ⟨⟨1, by push_cast; ring⟩, by linarith, by linarith⟩
        · have e : d' = d := by
            simp only [d', es, (real_lt_false d 0).2 (not_lt.1 h)]; simp
          rw [e]; exact ⟨⟨0, by simp⟩, not_lt.1 h, h2⟩
    obtain ⟨b, hb⟩ : ∃ b : Bool, (arcDeltaEta p cx cy px py).2 =
        let d := if b then (if GoFloat.lt (etaOf e p.x p.y - etaOf e px py) 0 then etaOf e p.x p.y - etaOf e px py + 2 * Real.pi
          else etaOf e p.x p.y - etaOf e px py - 2 * Real.pi) else etaOf e p.x p.y - etaOf e px py
        if GoFloat.lt d 0 && !GoFloat.eq p.sweep 0 then d + 2 * Real.pi
          else if GoFloat.le 0 d && !(!GoFloat.eq p.sweep 0) then d - 2 * Real.pi else d := by
      simp only [arcDeltaEta, real_add, real_sub, real_mul, real_div, real_cos, real_sin, real_num, real_piMul, real_atan2]
      norm_num only [Rat.cast_ofNat, Rat.cast_zero, Rat.cast_one, one_mul]
      exact ⟨_, rfl⟩
    obtain ⟨⟨n, hn⟩, h3, h4⟩ := step1 (etaOf e p.x p.y - etaOf e px py) (by linarith) (by linarith) b
    obtain ⟨⟨n', hn'⟩, h5⟩ := step2 _ h3 h4
    dsimp only at hb hn'
    rw [← hb] at hn' h5
    refine ⟨⟨n + n', ?_⟩, h5⟩
    rw [hn', hn]
    push_cast
    ring

end GoSvg
