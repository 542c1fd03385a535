import Verif.Lemmas.ArcChain
import Verif.Props.PathData
import Verif.Lemmas.PathFrame
import Verif.Lemmas.Trunc

/-! C13, C14: elliptical arcs, in exact arithmetic. -/

set_option linter.unusedSectionVars false

namespace GoSvg

variable [GoEnv]

open Spec
open SM (forEach)

/-! ### C13 -/

/-- C13: positive radii, distinct points. The centre and radii found define an ellipse with the requested rotation through
both points; the radii are the requested ones times the least factor, not below one, that makes this possible; the choice
depends on whether the two flags agree only; and every ellipse of that size and rotation through both points has one of the
two centres. -/
theorem C13_centre {rx ry rot x0 y0 x y : ℝ} (hx : 0 < rx) (hy : 0 < ry) (hne : (x0, y0) ≠ (x, y)) (sweep small : Bool) :
    let c := findEllipseCenter rx ry rot x0 y0 x y sweep small
    let c' := findEllipseCenter rx ry rot x0 y0 x y (!sweep) small
    (Ellipse.mk c.cx c.cy c.ra c.rb rot).Through x0 y0 ∧ (Ellipse.mk c.cx c.cy c.ra c.rb rot).Through x y ∧
    (∃ k, LeastScale rx ry rot x0 y0 x y k ∧ c.ra = k * rx ∧ c.rb = k * ry) ∧
    (Fits rx ry rot x0 y0 x y → c.ra = rx ∧ c.rb = ry) ∧
    findEllipseCenter rx ry rot x0 y0 x y (!sweep) (!small) = c ∧
    (∀ cx cy, (Ellipse.mk cx cy c.ra c.rb rot).Through x0 y0 → (Ellipse.mk cx cy c.ra c.rb rot).Through x y →
      (cx, cy) = (c.cx, c.cy) ∨ (cx, cy) = (c'.cx, c'.cy)) := by
  intro c c'
  obtain ⟨h1, h2⟩ := centre_through (rot := rot) hx hy hne sweep small
  have hL := scaleOf_least (rot := rot) hx hy hne
  obtain ⟨e1, e2, e3⟩ := findEllipseCenter_eq (rot := rot) hx hy hne sweep small
  obtain ⟨-, -, e3'⟩ := findEllipseCenter_eq (rot := rot) hx hy hne (!sweep) small
  refine ⟨h1, h2, ⟨_, hL, e1, e2⟩, ?_, ?_, ?_⟩
  · intro hf
    have h := hL.2.2 1 (le_refl _) (by simpa using hf)
    have hk : scaleOf rx ry rot x0 y0 x y = 1 := le_antisymm h hL.1
    rw [hk, one_mul] at e1 e2
    exact ⟨e1, e2⟩
  · simp only [c]
    cases sweep <;> cases small <;> rfl
  · intro cx cy g1 g2
    change c.ra = _ at e1
    change c.rb = _ at e2
    rw [e1, e2] at g1 g2
    have hq : ry / rx ≠ 0 := (div_pos hy hx).ne'
    have hu := centre_unique hx hy hne cx cy g1 g2
    change fr _ _ (c.cx - x0) (c.cy - y0) = _ at e3
    change fr _ _ (c'.cx - x0) (c'.cy - y0) = _ at e3'
    have back : ∀ {a b : ℝ}, fr (ry / rx) rot (cx - x0) (cy - y0) = fr (ry / rx) rot (a - x0) (b - y0) → (cx, cy) = (a, b) := by
      intro a b h
      obtain ⟨i1, i2⟩ := fr_inj hq h
      rw [Prod.mk.injEq]; constructor <;> linarith
    cases sweep <;> cases small <;> simp only [Bool.and_self, Bool.not_true, Bool.not_false, Bool.and_false, Bool.false_and, Bool.and_true,
      Bool.or_false, Bool.or_true, if_true, Bool.false_eq_true, if_false, Bool.or_self] at e3 e3' <;>
    · rcases hu with hu | hu
      · first | (left; exact back (hu.trans e3.symm)) | (right; exact back (hu.trans e3'.symm))
      · first | (left; exact back (hu.trans e3.symm)) | (right; exact back (hu.trans e3'.symm))

/-- The two choices are different centres whenever a smaller ellipse would do as well. -/
theorem C13_two_centres {rx ry rot x0 y0 x y : ℝ} (hx : 0 < rx) (hy : 0 < ry) (hne : (x0, y0) ≠ (x, y)) (k : ℝ) (hk : 0 < k)
    (hk1 : k < 1) (hf : Fits (k * rx) (k * ry) rot x0 y0 x y) (sweep small : Bool) :
    let c := findEllipseCenter rx ry rot x0 y0 x y sweep small
    let c' := findEllipseCenter rx ry rot x0 y0 x y (!sweep) small
    (c.cx, c.cy) ≠ (c'.cx, c'.cy) := by
  intro c c' h
  have hL := halfChord_pos (rot := rot) hx hy hne
  have hb := fits_bound hx hy hk hf
  obtain ⟨-, -, e3⟩ := findEllipseCenter_eq (rot := rot) hx hy hne sweep small
  obtain ⟨-, -, e3'⟩ := findEllipseCenter_eq (rot := rot) hx hy hne (!sweep) small
  change fr _ _ (c.cx - x0) (c.cy - y0) = _ at e3
  change fr _ _ (c'.cx - x0) (c'.cy - y0) = _ at e3'
  rw [Prod.mk.injEq] at h
  rw [← h.1, ← h.2, e3] at e3'
  have hlt : sq (halfChord rx ry rot x0 y0 x y) < ry * ry := by
    have h1 : k * ry < ry := by nlinarith
    have h2 : (k * ry) ^ 2 < ry ^ 2 := pow_lt_pow_left₀ h1 (by positivity) (by norm_num)
    nlinarith
  have hr : 0 < hrOf rx ry rot x0 y0 x y := by
    unfold hrOf
    simp only
    rw [if_neg (not_lt.2 hlt.le)]
    exact div_pos (Real.sqrt_pos.2 (by linarith)) (Real.sqrt_pos.2 hL)
  have key : centreFr 1 rx ry rot x0 y0 x y = centreFr (-1) rx ry rot x0 y0 x y := by
    cases sweep <;> cases small <;> simp at e3' <;> first | exact e3' | exact e3'.symm
  simp only [centreFr, Prod.mk.injEq] at key
  obtain ⟨k1, k2⟩ := key
  have z2 : (halfChord rx ry rot x0 y0 x y).2 = 0 := by
    have : (halfChord rx ry rot x0 y0 x y).2 * hrOf rx ry rot x0 y0 x y = 0 := by linarith
    rcases mul_eq_zero.1 this with h | h
    · exact h
    · exact absurd h hr.ne'
  have z1 : (halfChord rx ry rot x0 y0 x y).1 = 0 := by
    have : (halfChord rx ry rot x0 y0 x y).1 * hrOf rx ry rot x0 y0 x y = 0 := by linarith
    rcases mul_eq_zero.1 this with h | h
    · exact h
    · exact absurd h hr.ne'
  unfold sq at hL
  rw [z1, z2] at hL
  norm_num at hL

/-! ### C14 -/

/-- What the loop over the cubics does, for any arguments. -/
theorem addArc_real (p : ArcArgs ℝ) (cx cy px py : ℝ) :
    let e := Ellipse.mk cx cy p.rx p.ry (p.rot * Real.pi / 180)
    let η := (arcDeltaEta p cx cy px py).1
    let δ := (arcDeltaEta p cx cy px py).2
    ∃ n : Nat, 1 ≤ n ∧ n ≤ 17 ∧ |δ| / n < Real.pi / 8 ∧
    addArc p cx cy px py = ((cubics e η (δ / n) (alphaOf (δ / n)) (p.x, p.y) n 0 (px, py)).map storeCubic, p.x, p.y) := by
  intro e η δ
  have hpi := Real.pi_pos
  have hδ : |δ| ≤ 2 * Real.pi := by
    have := (arcDeltaEta_real p cx cy px py).2.2
    rw [abs_le]
    split at this
    · constructor <;> linarith [this.1, this.2]
    · exact ⟨this.1, by linarith [this.2]⟩
  obtain ⟨n, h1, h2, h3, h4⟩ := arcSegs_spec hδ
  refine ⟨n, h2, h3, h4, ?_⟩
  have hl := ellLoop_eq p cx cy (p.rot * Real.pi / 180) η (δ / n) (alphaOf (δ / n)) n 0 px py
  simp only [Nat.cast_zero, mul_zero, add_zero, Nat.zero_add] at hl
  have e1 : addArc p cx cy px py = ellLoop p cx cy (Real.sin (p.rot * Real.pi / 180)) (Real.cos (p.rot * Real.pi / 180)) η
      (δ / n) (alphaOf (δ / n)) n 1 px py (e.tangent η).1 (e.tangent η).2 := by
    have hpr := ellipsePrime_eq e η
    simp only [e] at hpr
    unfold addArc
    simp only [real_mul, real_div, real_piMul, real_num, real_sin, real_cos, real_add, real_sub, real_sqrt, real_tan, real_ofInt]
    norm_num only [Rat.cast_ofNat, Rat.cast_one, one_mul]
    change ellLoop p cx cy _ _ η (δ / (arcSegs δ : ℤ)) _ (arcSegs δ).toNat 1 px py _ _ = _
    rw [h1, Int.toNat_natCast, Int.cast_natCast, hpr]
    rfl
  rw [e1]
  exact Prod.ext hl.1 (hl.2 h2)

theorem isArc_of {rx ry rot large sweep x0 y0 x y : ℝ} (hx : 0 < rx) (hy : 0 < ry) (hne : (x0, y0) ≠ (x, y)) :
    let r := rot * Real.pi / 180
    let c := findEllipseCenter rx ry r x0 y0 x y (GoFloat.eq sweep 0) (GoFloat.eq large 0)
    let p : ArcArgs ℝ := ⟨c.ra, c.rb, rot, large, sweep, x, y⟩
    IsArc rx ry r (!GoFloat.eq large 0) (!GoFloat.eq sweep 0) x0 y0 x y ⟨c.cx, c.cy, c.ra, c.rb, r⟩
      (arcDeltaEta p c.cx c.cy x0 y0).1 (arcDeltaEta p c.cx c.cy x0 y0).2 := by
  intro r c p
  set e : Ellipse := ⟨c.cx, c.cy, c.ra, c.rb, r⟩ with he
  have hpi := Real.pi_pos
  obtain ⟨t1, t2⟩ := centre_through (rot := r) hx hy hne (GoFloat.eq sweep 0) (GoFloat.eq large 0)
  have hL := scaleOf_least (rot := r) hx hy hne
  have hLp := halfChord_pos (rot := r) hx hy hne
  obtain ⟨e1, e2, e3⟩ := findEllipseCenter_eq (rot := r) hx hy hne (GoFloat.eq sweep 0) (GoFloat.eq large 0)
  change e.Through x0 y0 at t1
  change e.Through x y at t2
  change c.ra = _ at e1
  change c.rb = _ at e2
  change fr _ _ (c.cx - x0) (c.cy - y0) = _ at e3
  have hk1 := hL.1
  have hra : 0 < e.ra := by show 0 < c.ra; rw [e1]; positivity
  have hrb : 0 < e.rb := by show 0 < c.rb; rw [e2]; positivity
  obtain ⟨d1, ⟨n, d2⟩, d3⟩ := arcDeltaEta_real p c.cx c.cy x0 y0
  change _ = etaOf e x0 y0 at d1
  change _ = etaOf e x y - etaOf e x0 y0 + _ at d2
  change if sweep ≠ 0 then _ else _ at d3
  obtain ⟨s1, s2⟩ := etaOf_spec e t1
  obtain ⟨s3, s4⟩ := etaOf_spec e t2
  generalize hη : (arcDeltaEta p c.cx c.cy x0 y0).1 = η at *
  generalize hδ : (arcDeltaEta p c.cx c.cy x0 y0).2 = δ at *
  have hsum : η + δ = etaOf e x y + n * (2 * Real.pi) := by rw [d1, d2]; ring
  have hcos : Real.cos (η + δ) = (e.along x y).1 / e.ra := by rw [hsum, Real.cos_add_int_mul_two_pi, s3]
  have hsin : Real.sin (η + δ) = (e.along x y).2 / e.rb := by rw [hsum, Real.sin_add_int_mul_two_pi, s4]
  have hstart : e.point η = (x0, y0) := point_of_cos_sin e hra.ne' hrb.ne' (by rw [d1]; exact s1) (by rw [d1]; exact s2)
  have hstop : e.point (η + δ) = (x, y) := point_of_cos_sin e hra.ne' hrb.ne' hcos hsin
  -- not a full turn
  have h0 : δ ≠ 0 := by
    intro h; rw [h, add_zero, hstart] at hstop; exact hne hstop
  have h2 : δ ≠ -(2 * Real.pi) := by
    intro h
    have : e.point (η + δ) = e.point η := by
      rw [h, ← sub_eq_add_neg]; simp only [Ellipse.point, Real.cos_sub_two_pi, Real.sin_sub_two_pi]
    rw [this, hstart] at hstop; exact hne hstop
  -- the sign of sin δ
  have hcross : e.rb ^ 2 * Real.sin δ = -(2 * (if (GoFloat.eq sweep 0 && GoFloat.eq large 0) || (!GoFloat.eq sweep 0 && !GoFloat.eq large 0)
      then (1 : ℝ) else -1) * hrOf rx ry r x0 y0 x y * sq (halfChord rx ry r x0 y0 x y)) := by
    have hq : ry / rx * e.ra = e.rb := by show ry / rx * c.ra = c.rb; rw [e1, e2]; field_simp
    have hd : Real.sin δ = Real.sin (η + δ) * Real.cos η - Real.cos (η + δ) * Real.sin η := by
      rw [← Real.sin_sub]; congr 1; ring
    rw [hd, hcos, hsin, d1, s1, s2]
    have a1 : fr (ry / rx) r (x0 - c.cx) (y0 - c.cy) = ((e.along x0 y0).1 * (ry / rx), (e.along x0 y0).2) := rfl
    have a2 : fr (ry / rx) r (x - c.cx) (y - c.cy) = ((e.along x y).1 * (ry / rx), (e.along x y).2) := rfl
    have a3 : fr (ry / rx) r (x0 - c.cx) (y0 - c.cy) = (-(fr (ry / rx) r (c.cx - x0) (c.cy - y0)).1, -(fr (ry / rx) r (c.cx - x0) (c.cy - y0)).2) := by
      simp only [fr, Prod.mk.injEq]; constructor <;> ring
    have a4 : fr (ry / rx) r (x - c.cx) (y - c.cy) = (2 * (halfChord rx ry r x0 y0 x y).1 - (fr (ry / rx) r (c.cx - x0) (c.cy - y0)).1,
        2 * (halfChord rx ry r x0 y0 x y).2 - (fr (ry / rx) r (c.cx - x0) (c.cy - y0)).2) := by
      simp only [halfChord, fr, Prod.mk.injEq]; constructor <;> ring
    rw [a1, e3] at a3
    rw [a2, e3] at a4
    rw [Prod.mk.injEq] at a3 a4
    obtain ⟨b1, b2⟩ := a3
    obtain ⟨b3, b4⟩ := a4
    have hl : e.rb ^ 2 * ((e.along x y).2 / e.rb * ((e.along x0 y0).1 / e.ra) - (e.along x y).1 / e.ra * ((e.along x0 y0).2 / e.rb))
        = (e.along x y).2 * ((e.along x0 y0).1 * (ry / rx)) - (e.along x y).1 * (ry / rx) * (e.along x0 y0).2 := by
      have : ry / rx = e.rb / e.ra := by rw [← hq]; field_simp
      rw [this]; field_simp
    rw [hl, b1, b2, b3, b4]
    simp only [centreFr, sq]
    ring
  have hr0 := (hr_spec hy hLp).1
  have hrbpos : 0 < e.rb ^ 2 := by positivity
  refine ⟨rfl, ⟨_, hL, e1, e2⟩, hstart, hstop, ?_, ?_, ?_⟩
  · by_cases hs : sweep = 0
    · rw [if_neg (not_not.2 hs)] at d3
      rw [(real_eq _ _).2 hs]; simpa using d3.2
    · rw [if_pos hs] at d3
      rw [(real_eq_false _ _).2 hs]
      simpa using lt_of_le_of_ne d3.1 h0.symm
  · by_cases hs : sweep = 0
    · rw [if_neg (not_not.2 hs)] at d3
      rw [(real_eq _ _).2 hs] at hcross
      rw [abs_of_neg d3.2]
      by_cases hl : large = 0
      · rw [(real_eq _ _).2 hl] at hcross ⊢
        simp only [Bool.and_self, Bool.true_or, if_true, Bool.not_true, Bool.false_eq_true, if_false] at hcross ⊢
        -- sin δ ≤ 0 and δ < 0: -δ ≤ π
        by_contra hcon
        have : 0 < Real.sin δ := by
          rw [← Real.sin_add_two_pi]
          apply Real.sin_pos_of_pos_of_lt_pi
          · have := lt_of_le_of_ne d3.1 h2.symm; linarith
          · linarith [not_le.1 hcon]
        nlinarith [mul_pos hrbpos this, mul_nonneg hr0 hLp.le]
      · rw [(real_eq_false _ _).2 hl] at hcross ⊢
        simp only [Bool.and_false, Bool.not_true, Bool.not_false, Bool.and_true, Bool.or_self, Bool.false_eq_true, if_false, if_true] at hcross ⊢
        by_contra hcon
        have : Real.sin δ < 0 := Real.sin_neg_of_neg_of_neg_pi_lt d3.2 (by linarith [not_le.1 hcon])
        nlinarith [mul_neg_of_pos_of_neg hrbpos this, mul_nonneg hr0 hLp.le]
    · rw [if_pos hs] at d3
      rw [(real_eq_false _ _).2 hs] at hcross
      have hδ0 : 0 < δ := lt_of_le_of_ne d3.1 h0.symm
      rw [abs_of_pos hδ0]
      by_cases hl : large = 0
      · rw [(real_eq _ _).2 hl] at hcross ⊢
        simp only [Bool.false_and, Bool.not_true, Bool.not_false, Bool.and_false, Bool.or_self, Bool.false_eq_true, if_false] at hcross ⊢
        by_contra hcon
        have : Real.sin δ < 0 := by
          rw [← Real.sin_sub_two_pi]
          exact Real.sin_neg_of_neg_of_neg_pi_lt (by linarith [d3.2]) (by linarith [not_le.1 hcon])
        nlinarith [mul_neg_of_pos_of_neg hrbpos this, mul_nonneg hr0 hLp.le]
      · rw [(real_eq_false _ _).2 hl] at hcross ⊢
        simp only [Bool.and_false, Bool.not_false, Bool.and_self, Bool.false_or, if_true] at hcross ⊢
        by_contra hcon
        have : 0 < Real.sin δ := Real.sin_pos_of_pos_of_lt_pi hδ0 (not_le.1 hcon)
        nlinarith [mul_pos hrbpos this, mul_nonneg hr0 hLp.le]
  · split at d3
    · rw [abs_of_nonneg d3.1]; exact d3.2
    · rw [abs_of_neg d3.2]
      have := lt_of_le_of_ne d3.1 h2.symm
      linarith

theorem alphaOf_sign {θ : ℝ} (h : |θ| ≤ 0.394) : 0 ≤ alphaOf θ * θ := by
  have hpi := Real.pi_gt_three
  have hr : 1 ≤ Real.sqrt (4 + 3 * Real.tan (θ / 2) * Real.tan (θ / 2)) := by
    rw [Real.one_le_sqrt]; nlinarith [mul_self_nonneg (Real.tan (θ / 2))]
  have hs : 0 ≤ Real.sin θ * θ := by
    obtain ⟨g1, g2⟩ := abs_le.1 h
    rcases le_total 0 θ with h0 | h0
    · exact mul_nonneg (Real.sin_nonneg_of_nonneg_of_le_pi h0 (by linarith)) h0
    · exact mul_nonneg_of_nonpos_of_nonpos (Real.sin_nonpos_of_nonpos_of_neg_pi_le h0 (by linarith)) h0
  have : alphaOf θ * θ = (Real.sin θ * θ) * ((Real.sqrt (4 + 3 * Real.tan (θ / 2) * Real.tan (θ / 2)) - 1) / 3) := by
    unfold alphaOf; ring
  rw [this]
  exact mul_nonneg hs (by linarith)

/-- Equal pieces of an ellipse trace it. -/
theorem pieces_trace (e : Ellipse) (hx : e.ra ≠ 0) (hy : e.rb ≠ 0) {η δ : ℝ} {n : Nat} (n1 : 1 ≤ n) (n2 : n ≤ 17) (n3 : |δ| / n ≤ 0.394) :
    Traces e η δ n ((List.range' 0 n).map fun j : ℕ => piece e (alphaOf (δ / n)) (η + δ / n * j) (δ / n)) := by
  have hn : (n : ℝ) ≠ 0 := by exact_mod_cast (by omega : n ≠ 0)
  have hn0 : (0 : ℝ) < n := by exact_mod_cast (by omega : 0 < n)
  have hθ : |δ / n| ≤ 0.394 := by rw [abs_div, abs_of_pos hn0]; exact n3
  have hget : ∀ j (h : j < ((List.range' 0 n).map fun j : ℕ => piece e (alphaOf (δ / n)) (η + δ / n * j) (δ / n)).length),
      ((List.range' 0 n).map fun j : ℕ => piece e (alphaOf (δ / n)) (η + δ / n * j) (δ / n))[j] =
        piece e (alphaOf (δ / n)) (η + δ / n * j) (δ / n) := by
    intro j h; simp
  have e1 : ∀ j : ℕ, η + δ / n * j = η + δ * j / n := fun j => by ring
  have e2 : ∀ j : ℕ, η + δ / n * j + δ / n = η + δ * (j + 1) / n := fun j => by ring
  refine ⟨by simp, ⟨n1, n2⟩, ?_, ?_, ⟨alphaOf (δ / n), ?_, ?_⟩, ?_⟩
  · intro j h; rw [hget, ← e1]; rfl
  · intro j h; rw [hget, ← e2]; rfl
  · have := alphaOf_sign hθ
    have h2 : alphaOf (δ / n) * δ = alphaOf (δ / n) * (δ / n) * n := by field_simp
    rw [h2]; exact mul_nonneg this hn0.le
  · intro j h; rw [hget, ← e1, ← e2]; exact ⟨rfl, rfl⟩
  · intro c hc t t0 t1
    simp only [List.mem_map] at hc
    obtain ⟨j, -, rfl⟩ := hc
    exact piece_near e hx hy _ _ t hθ t0 t1

/-- Equal pieces of an ellipse of less than π/8 follow it. -/
theorem pieces_follow (e : Ellipse) (hx : e.ra ≠ 0) (hy : e.rb ≠ 0) {η δ : ℝ} {n : Nat} (n1 : 1 ≤ n) (n2 : n ≤ 17) (n3 : |δ| / n < Real.pi / 8) :
    Follows e η δ n ((List.range' 0 n).map fun j : ℕ => piece e (alphaOf (δ / n)) (η + δ / n * j) (δ / n)) :=
  ⟨pieces_trace e hx hy n1 n2 (by have := Real.pi_lt_d4; norm_num at this ⊢; linarith), n3⟩

/-- The cubics of an arc follow the ellipse. -/
theorem addArc_follows (p : ArcArgs ℝ) (cx cy px py : ℝ) (hx : p.rx ≠ 0) (hy : p.ry ≠ 0)
    (h0 : (Ellipse.mk cx cy p.rx p.ry (p.rot * Real.pi / 180)).point (arcDeltaEta p cx cy px py).1 = (px, py))
    (h1 : (Ellipse.mk cx cy p.rx p.ry (p.rot * Real.pi / 180)).point ((arcDeltaEta p cx cy px py).1 + (arcDeltaEta p cx cy px py).2)
      = (p.x, p.y)) :
    ∃ n cs, Follows ⟨cx, cy, p.rx, p.ry, p.rot * Real.pi / 180⟩ (arcDeltaEta p cx cy px py).1 (arcDeltaEta p cx cy px py).2 n cs ∧
      addArc p cx cy px py = (cs.map storeCubic, p.x, p.y) := by
  obtain ⟨n, n1, n2, n3, hA⟩ := addArc_real p cx cy px py
  set e : Ellipse := ⟨cx, cy, p.rx, p.ry, p.rot * Real.pi / 180⟩
  generalize (arcDeltaEta p cx cy px py).1 = η at *
  generalize (arcDeltaEta p cx cy px py).2 = δ at *
  have hn : (n : ℝ) ≠ 0 := by exact_mod_cast (by omega : n ≠ 0)
  have hc := cubics_pieces e η (δ / n) (alphaOf (δ / n)) n 0
  rw [Nat.zero_add, Nat.cast_zero, mul_zero, add_zero, div_mul_cancel₀ _ hn, h0, h1] at hc
  rw [hc] at hA
  exact ⟨n, _, pieces_follow e hx hy n1 n2 n3, hA⟩

/-- What the letter does with one parameter set. -/
theorem arc_letter {k : Char} (hk : k = 'a' ∨ k = 'A') (c : PathCursor ℝ) (rx ry rot large sweep x y : ℝ) :
    doLetter k { c with points := [rx, ry, rot, large, sweep, x, y] } =
      (.ok (), { addArcFromA 0 { c with points := [rx, ry, rot, large, sweep,
        if k = 'a' then x + c.placeX else x, if k = 'a' then y + c.placeY else y] } with lastKey := k }) := by
  have g : ∀ (r : Bool) (d : PathCursor ℝ), d.points.length = 7 → doLetter (if r then 'a' else 'A') d =
      (.ok (), { arcLoop (if r then 'a' else 'A') 1 0 d with lastKey := if r then 'a' else 'A' }) := by
    intro r d hd
    unfold doLetter
    rw [SM.bind_run, seg_arc, if_pos (hasSets_flat (n := 0) (by rw [hd])), hd]
    rfl
  rcases hk with rfl | rfl
  · exact g true _ rfl
  · exact g false _ rfl

theorem compile_snoc {F : Type} [GoFloat F] {ts1 : List Str} (h1 : ∀ t ∈ ts1, Segment t) {c c1 : PathCursor F}
    (hc : compilePath ts1.flatten c = (.ok (), c1)) {k : Char} {a : List F} {t : Str} (hk : k ∈ pathLetters) (ht : Writes k a t) :
    compilePath (ts1 ++ [t]).flatten c = doLetter k { c1 with points := a } := by
  have hs1 : ∀ t ∈ ts1, IsSegment t := fun t ht => isSegment_of (h1 t ht)
  have hst := writes_segment (startsSeg_letter hk) ht
  have hall := segments_mid (ts2 := []) (us := [t]) h1 (by simp) (by simpa using hst)
  rw [List.append_nil] at hall
  rw [compile_flatten _ hs1] at hc
  rw [compile_flatten _ hall, forEach_append, SM.bind_run, hc]
  simp only [forEach_one]
  exact addSeg_writes ht c1

/-- C14 in exact arithmetic, for one parameter set and positive radii, outside `use` (no offset), after anything that was
accepted. `(x, y)` is the given end, from the current point for `a`. The operations added are cubics that follow the arc that
SVG prescribes: right ellipse, right part of it, right direction; each cubic is as close to the arc as a millionth of the
radii, the last one ends in the end point, and the current point is the end point exactly. What is missing for the full
claim: repeated parameter sets and arcs in a `use` with an offset, for which it is false, and how far rounded coordinates are
off. -/
theorem C14_arc_partial (ts1 : List Str) (h1 : ∀ t ∈ ts1, Segment t) (c c1 : PathCursor ℝ)
    (hc : compilePath ts1.flatten c = (.ok (), c1)) (hoff : c.curX = 0 ∧ c.curY = 0) (k : Char) (hk : k = 'a' ∨ k = 'A')
    (rx ry rot large sweep x' y' x y : ℝ) (hx : x = if k = 'a' then x' + c1.placeX else x')
    (hy : y = if k = 'a' then y' + c1.placeY else y') (hrx : 0 < rx) (hry : 0 < ry) (hne : (c1.placeX, c1.placeY) ≠ (x, y))
    (t : Str) (ht : Writes k [rx, ry, rot, large, sweep, x', y'] t) :
    ∃ c2 e η δ n cs, compilePath (ts1 ++ [t]).flatten c = (.ok (), c2) ∧
      IsArc rx ry (rot * Real.pi / 180) (decide (large ≠ 0)) (decide (sweep ≠ 0)) c1.placeX c1.placeY x y e η δ ∧
      Follows e η δ n cs ∧
      c2.path = c1.path ++ cs.map (fun b => .cubicTo (toFixedP b.p1.1 b.p1.2) (toFixedP b.p2.1 b.p2.2) (toFixedP b.p3.1 b.p3.2)) ∧
      (c2.placeX, c2.placeY) = (x, y) := by
  have hoff1 : c1.curX = 0 ∧ c1.curY = 0 := by
    have := (compilePath_pstep ts1.flatten c).1
    rw [hc] at this
    exact ⟨this.curX.trans hoff.1, this.curY.trans hoff.2⟩
  rw [compile_snoc h1 hc (by rcases hk with rfl | rfl <;> decide) ht, arc_letter hk, ← hx, ← hy]
  have hA := isArc_of (rot := rot) (large := large) (sweep := sweep) hrx hry hne
  simp only at hA
  have hb : ∀ z : ℝ, (!GoFloat.eq z (0 : ℝ)) = decide (z ≠ 0) := by
    intro z
    by_cases hz : z = 0
    · rw [(real_eq _ _).2 hz]; simp [hz]
    · rw [(real_eq_false _ _).2 hz]; simp [hz]
  rw [hb, hb] at hA
  set ctr := findEllipseCenter rx ry (rot * Real.pi / 180) c1.placeX c1.placeY x y (GoFloat.eq sweep 0) (GoFloat.eq large 0) with hctr
  have hpos : ctr.ra ≠ 0 ∧ ctr.rb ≠ 0 := by
    obtain ⟨k, hk, e1, e2⟩ := hA.scale
    have := hk.1
    change ctr.ra = _ at e1
    change ctr.rb = _ at e2
    rw [e1, e2]
    constructor <;> positivity
  obtain ⟨n, cs, f1, f2⟩ := addArc_follows ⟨ctr.ra, ctr.rb, rot, large, sweep, x, y⟩ ctr.cx ctr.cy c1.placeX c1.placeY hpos.1 hpos.2
    hA.start hA.stop
  have f3 : addArcFromA 0 { c1 with points := [rx, ry, rot, large, sweep, x, y] } =
      { c1 with points := [ctr.ra, ctr.rb, rot, large, sweep, x, y], path := c1.path ++ cs.map storeCubic, placeX := x, placeY := y } := by
    unfold addArcFromA
    simp only [at_, List.getD_cons_zero, List.getD_cons_succ, real_mul, real_div, real_piMul, real_num, List.set_cons_zero,
      List.set_cons_succ, real_add, hoff1.1, hoff1.2, add_zero]
    norm_num only [Rat.cast_ofNat, Rat.cast_zero, Rat.cast_one, one_mul]
    rw [← hctr, f2]
  exact ⟨_, _, _, _, n, cs, rfl, hA, f1, by rw [f3]; rfl, by rw [f3]⟩

/-- The last point of an operation. -/
def endOf : Op → Option Pt
  | .cubicTo _ _ p => some p
  | _ => none

theorem cubics_end (e : Ellipse) (η θ α : ℝ) (stop : ℝ × ℝ) (n : Nat) : ∀ (i : Nat) (p0 : ℝ × ℝ),
    (cubics e η θ α stop n i p0).length = n ∧
    (1 ≤ n → ∃ b l, cubics e η θ α stop n i p0 = b ++ [l] ∧ l.p3 = stop) := by
  induction n with
  | zero => intro i p0; exact ⟨rfl, fun h => absurd h (by decide)⟩
  | succ n ih =>
    intro i p0
    rw [cubics]
    by_cases hn : n = 0
    · subst hn
      exact ⟨rfl, fun _ => ⟨[], _, rfl, rfl⟩⟩
    · simp only [hn, if_false]
      obtain ⟨g1, g2⟩ := ih (i + 1) (e.point (η + θ * (i + 1 : ℕ)))
      obtain ⟨b, l, g3, g4⟩ := g2 (by omega)
      refine ⟨by rw [List.length_cons, g1], fun _ => ⟨_ :: b, l, by rw [g3]; rfl, g4⟩⟩

/-- Any arc at all: one to seventeen cubics, the last of which ends in the end point. -/
theorem addArc_shape (p : ArcArgs ℝ) (cx cy px py : ℝ) : ∃ ops l, addArc p cx cy px py = (ops, p.x, p.y) ∧
    1 ≤ ops.length ∧ ops.length ≤ 17 ∧ (∀ o ∈ ops, ∃ a b q, o = .cubicTo a b q) ∧ ops.getLast? = some l ∧
    endOf l = some (toFixedP p.x p.y) := by
  obtain ⟨n, n1, n2, -, h⟩ := addArc_real p cx cy px py
  obtain ⟨g1, g2⟩ := cubics_end ⟨cx, cy, p.rx, p.ry, p.rot * Real.pi / 180⟩ (arcDeltaEta p cx cy px py).1
    ((arcDeltaEta p cx cy px py).2 / n) (alphaOf ((arcDeltaEta p cx cy px py).2 / n)) (p.x, p.y) n 0 (px, py)
  obtain ⟨b, l, g3, g4⟩ := g2 n1
  refine ⟨_, storeCubic l, h, by simp [g1, n1], by simp [g1, n2], ?_, ?_, ?_⟩
  · intro o ho
    simp only [List.mem_map] at ho
    obtain ⟨c, -, rfl⟩ := ho
    exact ⟨_, _, _, rfl⟩
  · rw [g3]; simp
  · simp only [storeCubic, endOf, g4]

/-- The part of C14 that holds for every parameter set, whatever the radii and the end point: between one and seventeen
cubics, the last of which ends in the end point as given; the current point is the end point exactly. (The offset of an
enclosing `use` is not added to the end point.) -/
theorem C14_end_point (ts1 : List Str) (h1 : ∀ t ∈ ts1, Segment t) (c c1 : PathCursor ℝ)
    (hc : compilePath ts1.flatten c = (.ok (), c1)) (k : Char) (hk : k = 'a' ∨ k = 'A')
    (rx ry rot large sweep x' y' x y : ℝ) (hx : x = if k = 'a' then x' + c1.placeX else x')
    (hy : y = if k = 'a' then y' + c1.placeY else y') (t : Str) (ht : Writes k [rx, ry, rot, large, sweep, x', y'] t) :
    ∃ c2 ops l, compilePath (ts1 ++ [t]).flatten c = (.ok (), c2) ∧ c2.path = c1.path ++ ops ∧ 1 ≤ ops.length ∧
      ops.length ≤ 17 ∧ (∀ o ∈ ops, ∃ a b q, o = .cubicTo a b q) ∧ ops.getLast? = some l ∧ endOf l = some (toFixedP x y) ∧
      (c2.placeX, c2.placeY) = (x, y) := by
  rw [compile_snoc h1 hc (by rcases hk with rfl | rfl <;> decide) ht, arc_letter hk, ← hx, ← hy]
  obtain ⟨ctr, hctr⟩ : ∃ ctr, ctr = findEllipseCenter rx ry (rot * Real.pi / 180) c1.placeX c1.placeY x y (GoFloat.eq sweep 0)
    (GoFloat.eq large 0) := ⟨_, rfl⟩
  obtain ⟨ops, l, g1, g2, g3, g4, g5, g6⟩ := addArc_shape ⟨ctr.ra, ctr.rb, rot, large, sweep, x, y⟩ (ctr.cx + c1.curX) (ctr.cy + c1.curY)
    (c1.placeX + c1.curX) (c1.placeY + c1.curY)
  have f3 : addArcFromA 0 { c1 with points := [rx, ry, rot, large, sweep, x, y] } =
      { c1 with points := [ctr.ra, ctr.rb, rot, large, sweep, x, y], path := c1.path ++ ops, placeX := x, placeY := y } := by
    unfold addArcFromA
    simp only [at_, List.getD_cons_zero, List.getD_cons_succ, real_mul, real_div, real_piMul, real_num, List.set_cons_zero,
      List.set_cons_succ, real_add]
    norm_num only [Rat.cast_ofNat, Rat.cast_zero, Rat.cast_one, one_mul]
    rw [← hctr, g1]
  exact ⟨_, ops, l, rfl, by rw [f3], g2, g3, g4, g5, g6, by rw [f3]⟩

/-! ### C08 for arcs -/

theorem at_set_ne {ps : List ℝ} {i j : Nat} {v : ℝ} (h : i ≠ j) : at_ (ps.set i v) j = at_ ps j := by
  unfold at_; rw [List.getD_eq_getElem?_getD, List.getD_eq_getElem?_getD, List.getElem?_set_ne h]

theorem arcFromA_first {i : Nat} (hi : i % 7 = 0) (c : PathCursor ℝ) : ∃ ops l,
    let c' := addArcFromA i c
    c'.path = c.path ++ ops ∧ ops.getLast? = some l ∧ endOf l = some (toFixedP (at_ c.points 5) (at_ c.points 6)) ∧
    c'.placeX = at_ c.points 5 ∧ c'.placeY = at_ c.points 6 ∧ at_ c'.points 5 = at_ c.points 5 ∧ at_ c'.points 6 = at_ c.points 6 := by
  obtain ⟨ctr, hctr⟩ : ∃ ctr, ctr = findEllipseCenter (at_ c.points i) (at_ c.points (i + 1))
    (at_ c.points (i + 2) *. GoFloat.piMul 1 /. num 180)
    c.placeX c.placeY (at_ c.points (i + 5)) (at_ c.points (i + 6))
    (GoFloat.eq (at_ c.points (i + 4)) (num 0)) (GoFloat.eq (at_ c.points (i + 3)) (num 0)) := ⟨_, rfl⟩
  have p5 : ∀ j, j = 5 ∨ j = 6 → at_ ((c.points.set i ctr.ra).set (i + 1) ctr.rb) j = at_ c.points j := by
    intro j hj
    rw [at_set_ne (by omega), at_set_ne (by omega)]
  obtain ⟨ps, hps⟩ : ∃ ps, ps = (c.points.set i ctr.ra).set (i + 1) ctr.rb := ⟨_, rfl⟩
  rw [← hps] at p5
  obtain ⟨ops, l, g1, -, -, -, g5, g6⟩ := addArc_shape ⟨at_ ps 0, at_ ps 1, at_ ps 2, at_ ps 3, at_ ps 4, at_ ps 5, at_ ps 6⟩
    (ctr.cx +. c.curX) (ctr.cy +. c.curY) (c.placeX +. c.curX) (c.placeY +. c.curY)
  have f : addArcFromA i c = { c with points := ps, path := c.path ++ ops, placeX := at_ ps 5, placeY := at_ ps 6 } := by
    unfold addArcFromA
    simp only
    rw [← hctr, ← hps, g1]
  refine ⟨ops, l, ?_⟩
  rw [f]
  simp only [p5 5 (.inl rfl), p5 6 (.inr rfl)] at g6 ⊢
  exact ⟨trivial, g5, g6, trivial, trivial, trivial, trivial⟩

theorem arcLoop_first (n : Nat) : ∀ (i : Nat), i % 7 = 0 → ∀ c : PathCursor ℝ, ∃ ops l,
    let c' := arcLoop 'A' (n + 1) i c
    c'.path = c.path ++ ops ∧ ops.getLast? = some l ∧ endOf l = some (toFixedP (at_ c.points 5) (at_ c.points 6)) ∧
    c'.placeX = at_ c.points 5 ∧ c'.placeY = at_ c.points 6 := by
  induction n with
  | zero =>
    intro i hi c
    obtain ⟨ops, l, h1, h2, h3, h4, h5, -⟩ := arcFromA_first hi c
    exact ⟨ops, l, h1, h2, h3, h4, h5⟩
  | succ n ih =>
    intro i hi c
    obtain ⟨ops, l, h1, h2, h3, h4, h5, h6, h7⟩ := arcFromA_first hi c
    obtain ⟨ops', l', g1, g2, g3, g4, g5⟩ := ih (i + 7) (by omega) (addArcFromA i c)
    rw [h6, h7] at g3
    rw [h6] at g4
    rw [h7] at g5
    refine ⟨ops ++ ops', l', ?_, ?_, g3, g4, g5⟩
    · have e : arcLoop 'A' (n + 1 + 1) i c = arcLoop 'A' (n + 1) (i + 7) (addArcFromA i c) := by
        conv_lhs => rw [arcLoop]
        simp
      rw [e, g1, h1, List.append_assoc]
    · rw [List.getLast?_append, g2]; rfl

/-- What happens instead of C08 for arcs: however many parameter sets `A` has, the last cubic ends in the end point of the
first set, and so is the current point. -/
theorem arcs_end_at_first (ts1 : List Str) (h1 : ∀ t ∈ ts1, Segment t) (c c1 : PathCursor ℝ)
    (hc : compilePath ts1.flatten c = (.ok (), c1)) (a : List ℝ) (n : Nat) (ha : a.length = 7 * (n + 1)) (t : Str)
    (ht : Writes 'A' a t) : ∃ c2 l, compilePath (ts1 ++ [t]).flatten c = (.ok (), c2) ∧ c2.path.getLast? = some l ∧
      endOf l = some (toFixedP (a.getD 5 0) (a.getD 6 0)) ∧ (c2.placeX, c2.placeY) = (a.getD 5 0, a.getD 6 0) := by
  rw [compile_snoc h1 hc (by decide) ht]
  have g : doLetter 'A' { c1 with points := a } =
      (.ok (), { arcLoop 'A' (a.length / 7) 0 { c1 with points := a } with lastKey := 'A' }) := by
    have := seg_arc { c1 with points := a } false
    simp only [Bool.false_eq_true, if_false] at this
    unfold doLetter
    rw [SM.bind_run, this, if_pos (hasSets_flat ha)]
    rfl
  have hn : a.length / 7 = n + 1 := by omega
  rw [g, hn]
  obtain ⟨ops, l, g1, g2, g3, g4, g5⟩ := arcLoop_first n 0 (by rfl) { c1 with points := a }
  have e0 : (num 0 : ℝ) = 0 := by rw [real_num]; norm_num
  refine ⟨_, l, rfl, ?_, ?_, ?_⟩
  · simp only [g1]
    rw [List.getLast?_append, g2]; rfl
  · rw [g3]; simp only [at_, e0]
  · simp only [g4, g5, at_, e0]

/-- A text for given rational numbers, in exact arithmetic. -/
theorem writes_rat {k : Char} {l : GroupList} {t : Str} (qs : List ℚ) (h1 : t = k :: l.text) (h2 : l.WF)
    (h3 : ∀ c ∈ l.last, PathSep c) (h4 : ∀ i ∈ l.items, ∀ c ∈ i.1, PathSep c) (h5 : l.numbers.map Spelling.value = qs) :
    Writes k (qs.map fun q : ℚ => (q : ℝ)) t := by
  refine ⟨l, l.numbers.map fun n => (n.value : ℝ), h1, h2, h3, h4, readAll_real _ (groupList_numbers_wf h2), ?_⟩
  rw [← h5, List.map_map, List.map_map]
  apply List.map_congr_left
  intro n _
  show _ = (n.value : ℝ) * ((1 : ℚ) : ℝ)
  simp

end GoSvg

namespace GoSvg

/-- Points on the 26.6 grid are stored as they are. -/
theorem toFixedP_grid {x y : ℝ} {a b : ℤ} (h1 : x * 64 = a) (h2 : y * 64 = b) (ha : -2 ^ 31 ≤ a ∧ a < 2 ^ 31)
    (hb : -2 ^ 31 ≤ b ∧ b < 2 ^ 31) : toFixedP x y = ⟨a, b⟩ := by
  unfold toFixedP
  rw [toFix_real, toFix_real, h1, h2, toI32_int a ha.1 ha.2, toI32_int b hb.1 hb.2]

section Examples

open Spec

attribute [local instance] asciiEnv

/-- A parser that has not parsed anything, in exact arithmetic. -/
noncomputable def freshReal (m : ErrorMode) : PathCursor ℝ :=
  ⟨[], 0, 0, 0, 0, 0, 0, 0, 0, [], ' ', m, false, []⟩

set_option maxRecDepth 100000 in
theorem ex_moveR : Writes 'M' ([0, 0] : List ℝ) "M0 0".toList := by
  have := writes_rat (k := 'M') (l := ⟨[int "" "0", int " " "0"], []⟩) (t := "M0 0".toList) [0, 0] (by decide +kernel)
    (by decide +kernel) (by decide +kernel) (by decide +kernel) (by decide +kernel)
  simpa using this

set_option maxRecDepth 100000 in
theorem ex_arcs : Writes 'A' ([1, 1, 0, 0, 0, 2, 0, 1, 1, 0, 0, 0, 4, 0] : List ℝ) "A1 1 0 0 0 2 0 1 1 0 0 0 4 0".toList := by
  have := writes_rat (k := 'A') (l := ⟨[int "" "1", int " " "1", int " " "0", int " " "0", int " " "0", int " " "2", int " " "0",
    int " " "1", int " " "1", int " " "0", int " " "0", int " " "0", int " " "4", int " " "0"], []⟩)
    (t := "A1 1 0 0 0 2 0 1 1 0 0 0 4 0".toList) [1, 1, 0, 0, 0, 2, 0, 1, 1, 0, 0, 0, 4, 0] (by decide +kernel)
    (by decide +kernel) (by decide +kernel) (by decide +kernel) (by decide +kernel)
  simpa using this

set_option maxRecDepth 100000 in
theorem ex_arc1 : Writes 'A' ([1, 1, 0, 0, 0, 2, 0] : List ℝ) "A1 1 0 0 0 2 0".toList := by
  have := writes_rat (k := 'A') (l := ⟨[int "" "1", int " " "1", int " " "0", int " " "0", int " " "0", int " " "2", int " " "0"], []⟩)
    (t := "A1 1 0 0 0 2 0".toList) [1, 1, 0, 0, 0, 2, 0] (by decide +kernel)
    (by decide +kernel) (by decide +kernel) (by decide +kernel) (by decide +kernel)
  simpa using this

set_option maxRecDepth 100000 in
theorem ex_arc2 : Writes 'A' ([1, 1, 0, 0, 0, 4, 0] : List ℝ) "A1 1 0 0 0 4 0".toList := by
  have := writes_rat (k := 'A') (l := ⟨[int "" "1", int " " "1", int " " "0", int " " "0", int " " "0", int " " "4", int " " "0"], []⟩)
    (t := "A1 1 0 0 0 4 0".toList) [1, 1, 0, 0, 0, 4, 0] (by decide +kernel)
    (by decide +kernel) (by decide +kernel) (by decide +kernel) (by decide +kernel)
  simpa using this

theorem ex_start : ∃ c1, compilePath "M0 0".toList (freshReal .strict) = (.ok (), c1) ∧ c1.placeX = 0 ∧ c1.placeY = 0 := by
  have h := compile_snoc (ts1 := []) (by simp) (c := freshReal .strict) (c1 := (freshReal .strict).init) rfl (by decide) ex_moveR
  have e : (["M0 0".toList] : List Str).flatten = "M0 0".toList := by decide +kernel
  rw [List.nil_append, e] at h
  rw [h]
  exact ⟨_, rfl, rfl, rfl⟩

theorem ex_seg : ∀ t ∈ ["M0 0".toList], Segment t := by
  simp only [List.mem_singleton, forall_eq]
  exact ex_segment (by decide) (by decide)

/-- C13: a unit circle through (0, 0) and (2, 0), and one that has to be enlarged. -/
example : ∃ k, LeastScale 1 1 0 0 0 2 0 k ∧ (findEllipseCenter 1 1 0 0 0 2 0 true true : Center ℝ).ra = k * 1 :=
  let ⟨k, h1, h2, _⟩ := (C13_centre (rot := 0) (by norm_num) (by norm_num) (by norm_num) true true).2.2.1
  ⟨k, h1, h2⟩

/-- C13: with radius 1 two different circles lead through (0, 0) and (1, 0), as a smaller one does already. -/
example : ((findEllipseCenter 1 1 0 0 0 1 0 true true : Center ℝ).cx, (findEllipseCenter 1 1 0 0 0 1 0 true true : Center ℝ).cy) ≠
    ((findEllipseCenter 1 1 0 0 0 1 0 false true : Center ℝ).cx, (findEllipseCenter 1 1 0 0 0 1 0 false true : Center ℝ).cy) :=
  C13_two_centres (by norm_num) (by norm_num) (by norm_num) (1 / 2) (by norm_num) (by norm_num)
    ⟨1 / 2, 0, by norm_num [Ellipse.Through, Ellipse.along]⟩ true true

/-- C14: a half circle from (0, 0) to (2, 0). -/
example : ∃ c2 e η δ n cs, compilePath "M0 0A1 1 0 0 0 2 0".toList (freshReal .strict) = (.ok (), c2) ∧
    IsArc 1 1 (0 * Real.pi / 180) false false 0 0 2 0 e η δ ∧ Follows e η δ n cs ∧ c2.placeX = 2 := by
  obtain ⟨c1, h1, h2, h3⟩ := ex_start
  have e : (["M0 0".toList] ++ ["A1 1 0 0 0 2 0".toList]).flatten = "M0 0A1 1 0 0 0 2 0".toList := by decide +kernel
  have e1 : (["M0 0".toList] : List Str).flatten = "M0 0".toList := by decide +kernel
  have h := C14_arc_partial ["M0 0".toList] ex_seg (freshReal .strict) c1 (by rw [e1]; exact h1) ⟨rfl, rfl⟩ 'A' (.inr rfl) 1 1 0 0 0 2 0 2 0
    rfl rfl (by norm_num) (by norm_num) (by rw [h2]; norm_num) _ ex_arc1
  rw [h2, h3, e] at h
  obtain ⟨c2, e, η, δ, n, cs, g1, g2, g3, -, g5⟩ := h
  rw [Prod.mk.injEq] at g5
  exact ⟨c2, e, η, δ, n, cs, g1, by simpa using g2, g3, g5.1⟩

/-- C08 fails for arcs: with two parameter sets in one command, the path ends at (2, 0) instead of (4, 0). -/
theorem C08_arcs_false : ∃ c1 c2 l1 l2,
    compilePath "M0 0A1 1 0 0 0 2 0 1 1 0 0 0 4 0".toList (freshReal .strict) = (.ok (), c1) ∧
    compilePath "M0 0A1 1 0 0 0 2 0A1 1 0 0 0 4 0".toList (freshReal .strict) = (.ok (), c2) ∧
    c1.path.getLast? = some l1 ∧ endOf l1 = some ⟨128, 0⟩ ∧ c2.path.getLast? = some l2 ∧ endOf l2 = some ⟨256, 0⟩ ∧
    ¬ SameResult (compilePath "M0 0A1 1 0 0 0 2 0 1 1 0 0 0 4 0".toList (freshReal .strict))
      (compilePath "M0 0A1 1 0 0 0 2 0A1 1 0 0 0 4 0".toList (freshReal .strict)) := by
  obtain ⟨c1, h1, -, -⟩ := ex_start
  have e1 : (["M0 0".toList] : List Str).flatten = "M0 0".toList := by decide +kernel
  have e2 : (["M0 0".toList] ++ ["A1 1 0 0 0 2 0 1 1 0 0 0 4 0".toList]).flatten = "M0 0A1 1 0 0 0 2 0 1 1 0 0 0 4 0".toList := by
    decide +kernel
  have e3 : (["M0 0".toList] ++ ["A1 1 0 0 0 2 0".toList]).flatten = "M0 0A1 1 0 0 0 2 0".toList := by decide +kernel
  have e4 : (["M0 0".toList, "A1 1 0 0 0 2 0".toList] ++ ["A1 1 0 0 0 4 0".toList]).flatten =
    "M0 0A1 1 0 0 0 2 0A1 1 0 0 0 4 0".toList := by decide +kernel
  have e5 : (["M0 0".toList, "A1 1 0 0 0 2 0".toList] : List Str).flatten = "M0 0A1 1 0 0 0 2 0".toList := by decide +kernel
  obtain ⟨d1, l1, p1, p2, p3, -⟩ := arcs_end_at_first ["M0 0".toList] ex_seg (freshReal .strict) c1 (by rw [e1]; exact h1) _ 1 rfl _ ex_arcs
  obtain ⟨d2, l2, q1, -⟩ := arcs_end_at_first ["M0 0".toList] ex_seg (freshReal .strict) c1 (by rw [e1]; exact h1) _ 0 rfl _ ex_arc1
  rw [e3] at q1
  obtain ⟨d3, l3, r1, r2, r3, -⟩ := arcs_end_at_first ["M0 0".toList, "A1 1 0 0 0 2 0".toList]
    (by simp only [List.mem_cons, List.not_mem_nil, or_false, forall_eq_or_imp, forall_eq]
        exact ⟨ex_segment (by decide) (by decide), ex_segment (by decide) (by decide)⟩)
    (freshReal .strict) d2 (by rw [e5]; exact q1) _ 0 rfl _ ex_arc2
  rw [e2] at p1
  rw [e4] at r1
  have t1 : (toFixedP (2 : ℝ) 0) = ⟨128, 0⟩ := toFixedP_grid (by norm_num) (by norm_num) (by norm_num) (by norm_num)
  have t2 : (toFixedP (4 : ℝ) 0) = ⟨256, 0⟩ := toFixedP_grid (by norm_num) (by norm_num) (by norm_num) (by norm_num)
  change endOf l1 = some (toFixedP (2 : ℝ) 0) at p3
  change endOf l3 = some (toFixedP (4 : ℝ) 0) at r3
  rw [t1] at p3
  rw [t2] at r3
  refine ⟨d1, d3, l1, l3, p1, r1, p2, p3, r2, r3, fun h => ?_⟩
  have h := h.2.1
  rw [p1, r1] at h
  simp only at h
  rw [h, r2, Option.some.injEq] at p2
  rw [← p2, r3] at p3
  exact absurd p3 (by decide)

end Examples

end GoSvg
