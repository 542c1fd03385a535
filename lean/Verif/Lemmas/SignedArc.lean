import Verif.Props.Arcs

/-! Arcs with negative radii, in exact arithmetic. -/

namespace GoSvg

open Spec

/-- A sign. -/
def Sgn (t : ℝ) : Prop := t = 1 ∨ t = -1

theorem Sgn.sq {t : ℝ} (h : Sgn t) : t * t = 1 := by rcases h with rfl | rfl <;> norm_num

theorem Sgn.ne {t : ℝ} (h : Sgn t) : t ≠ 0 := by rcases h with rfl | rfl <;> norm_num

theorem Sgn.mul {s t : ℝ} (h : Sgn s) (h' : Sgn t) : Sgn (s * t) := by
  rcases h with rfl | rfl <;> rcases h' with rfl | rfl <;> simp [Sgn]

/-- The part of `findEllipseCenter` between the two rotations. `mx`, `my`: half the chord. -/
noncomputable def midPart (ra rb mx my : ℝ) (same : Bool) : ℝ × ℝ × ℝ × ℝ :=
  let L := mx * mx + my * my
  let r : ℝ × ℝ × ℝ := if rb * rb < L then (if ra = rb then Real.sqrt L else ra * Real.sqrt L / rb, Real.sqrt L, 0)
    else (ra, rb, Real.sqrt (rb * rb - L) / Real.sqrt L)
  let c : ℝ × ℝ := if same then (mx + my * r.2.2, my - mx * r.2.2) else (mx - my * r.2.2, my + mx * r.2.2)
  (r.1, r.2.1, c.1 * (r.1 / r.2.1), c.2)

theorem centre_midPart (ra rb rot x0 y0 x y : ℝ) (sweep small : Bool) :
    let m := midPart ra rb (((x - x0) * Real.cos rot + (y - y0) * Real.sin rot) * (rb / ra) / 2)
      ((-(x - x0) * Real.sin rot + (y - y0) * Real.cos rot) / 2) ((sweep && small) || (!sweep && !small))
    findEllipseCenter ra rb rot x0 y0 x y sweep small =
      ⟨m.1, m.2.1, m.2.2.1 * Real.cos rot - m.2.2.2 * Real.sin rot + x0, m.2.2.1 * Real.sin rot + m.2.2.2 * Real.cos rot + y0⟩ := by
  intro m
  have hlt : ∀ {α : Type} (a b : ℝ) (u v : α), (if GoFloat.lt a b = true then u else v) = if a < b then u else v := by
    intro α a b u v
    by_cases h : a < b
    · rw [if_pos h, if_pos ((real_lt a b).2 h)]
    · rw [if_neg h, if_neg (fun h' => h ((real_lt a b).1 h'))]
  have heq : ∀ {α : Type} (a b : ℝ) (u v : α), (if GoFloat.eq a b = true then u else v) = if a = b then u else v := by
    intro α a b u v
    by_cases h : a = b
    · rw [if_pos h, if_pos ((real_eq a b).2 h)]
    · rw [if_neg h, if_neg (fun h' => h ((real_eq a b).1 h'))]
  unfold findEllipseCenter
  simp only [real_mul, real_div, real_num, real_sin, real_cos, real_add, real_sub, real_sqrt, real_neg, hlt, heq]
  norm_num only [Rat.cast_ofNat, Rat.cast_zero, Rat.cast_one]
  rfl

theorem midPart_signed {ra rb : ℝ} (hb : rb ≠ 0) {s1 s2 : ℝ} (h1 : Sgn s1) (h2 : Sgn s2) (mx my : ℝ) (same : Bool) :
    let m := midPart (s1 * ra) (s2 * rb) (s1 * s2 * mx) my same
    let m0 := midPart ra rb mx my (if s1 = s2 then same else !same)
    ∃ t1 t2, Sgn t1 ∧ Sgn t2 ∧ t1 * t2 = s1 * s2 ∧ m.1 = t1 * m0.1 ∧ m.2.1 = t2 * m0.2.1 ∧ m.2.2 = m0.2.2 := by
  intro m m0
  have eL : s1 * s2 * mx * (s1 * s2 * mx) + my * my = mx * mx + my * my := by
    linear_combination (s2 * s2 * mx * mx) * h1.sq + (mx * mx) * h2.sq
  have eR : s2 * rb * (s2 * rb) = rb * rb := by linear_combination (rb * rb) * h2.sq
  simp only [m, m0, midPart, eL, eR]
  by_cases hg : rb * rb < mx * mx + my * my
  · simp only [if_pos hg]
    set q := Real.sqrt (mx * mx + my * my)
    have f1 : (if s1 * ra = s2 * rb then q else s1 * ra * q / (s2 * rb)) = s1 * s2 * (if ra = rb then q else ra * q / rb) := by
      have g1 : (if s1 * ra = s2 * rb then q else s1 * ra * q / (s2 * rb)) = s1 * ra * q / (s2 * rb) := by
        split
        · next h => rw [h]; field_simp [h2.ne]
        · rfl
      have g2 : (if ra = rb then q else ra * q / rb) = ra * q / rb := by
        split
        · next h => rw [h]; field_simp
        · rfl
      rw [g1, g2]
      rcases h1 with rfl | rfl <;> rcases h2 with rfl | rfl <;> field_simp
    rw [f1]
    generalize (if ra = rb then q else ra * q / rb) = a
    refine ⟨s1 * s2, 1, h1.mul h2, .inl rfl, by ring, rfl, by ring, ?_⟩
    rcases h1 with rfl | rfl <;> rcases h2 with rfl | rfl <;> cases same <;> norm_num <;> ring
  · simp only [if_neg hg]
    refine ⟨s1, s2, h1, h2, rfl, rfl, rfl, ?_⟩
    rcases h1 with rfl | rfl <;> rcases h2 with rfl | rfl <;> cases same <;> norm_num <;> (try constructor) <;> ring

/-- With negative radii the centre is that for the positive radii, but with the other sweep if one of them is negative. -/
theorem centre_signed {ra rb : ℝ} (ha : ra ≠ 0) (hb : rb ≠ 0) {s1 s2 : ℝ} (h1 : Sgn s1) (h2 : Sgn s2) (rot x0 y0 x y : ℝ) (sweep small : Bool) :
    let c := findEllipseCenter (s1 * ra) (s2 * rb) rot x0 y0 x y sweep small
    let c0 := findEllipseCenter ra rb rot x0 y0 x y (if s1 = s2 then sweep else !sweep) small
    c.cx = c0.cx ∧ c.cy = c0.cy ∧ ∃ t1 t2, Sgn t1 ∧ Sgn t2 ∧ t1 * t2 = s1 * s2 ∧ c.ra = t1 * c0.ra ∧ c.rb = t2 * c0.rb := by
  intro c c0
  simp only [c, c0]
  rw [centre_midPart, centre_midPart]
  have e1 : ∀ n : ℝ, n * (s2 * rb / (s1 * ra)) / 2 = s1 * s2 * (n * (rb / ra) / 2) := by
    intro n
    rcases h1 with rfl | rfl <;> rcases h2 with rfl | rfl <;> field_simp
  rw [e1]
  obtain ⟨t1, t2, g1, g2, g3, g4, g5, g6⟩ := midPart_signed (ra := ra) hb h1 h2
    (((x - x0) * Real.cos rot + (y - y0) * Real.sin rot) * (rb / ra) / 2) ((-(x - x0) * Real.sin rot + (y - y0) * Real.cos rot) / 2)
    ((sweep && small) || (!sweep && !small))
  have e2 : (if s1 = s2 then ((sweep && small) || (!sweep && !small)) else !((sweep && small) || (!sweep && !small)))
      = (((if s1 = s2 then sweep else !sweep) && small) || (!(if s1 = s2 then sweep else !sweep) && !small)) := by
    split <;> cases sweep <;> cases small <;> rfl
  rw [e2] at g4 g5 g6
  refine ⟨?_, ?_, t1, t2, g1, g2, g3, g4, g5⟩
  · rw [g6]
  · rw [g6]

/-- The same curve, seen with signed radii. -/
theorem follows_signed {e e0 : Ellipse} {t1 t2 : ℝ} (h1 : Sgn t1) (h2 : Sgn t2) (he : e = ⟨e0.cx, e0.cy, t1 * e0.ra, t2 * e0.rb, e0.rot⟩)
    {η η0 δ0 : ℝ} (hc : Real.cos η = t1 * Real.cos η0) (hs : Real.sin η = t2 * Real.sin η0) {n : Nat} {cs : List Cubic}
    (h : Follows e η (t1 * t2 * δ0) n cs) : Follows e0 η0 δ0 n cs := by
  have cs' : ∀ r : ℝ, Real.cos (η + t1 * t2 * r) = t1 * Real.cos (η0 + r) ∧ Real.sin (η + t1 * t2 * r) = t2 * Real.sin (η0 + r) := by
    intro r
    rw [Real.cos_add, Real.sin_add, Real.cos_add, Real.sin_add, hc, hs]
    rcases h1 with rfl | rfl <;> rcases h2 with rfl | rfl <;> norm_num <;> (try constructor) <;> ring
  have hp : ∀ r, e.point (η + t1 * t2 * r) = e0.point (η0 + r) := by
    intro r
    obtain ⟨g1, g2⟩ := cs' r
    simp only [Ellipse.point, he, g1, g2, Prod.mk.injEq]
    constructor
    · linear_combination (e0.ra * Real.cos (η0 + r) * Real.cos e0.rot) * h1.sq - (e0.rb * Real.sin (η0 + r) * Real.sin e0.rot) * h2.sq
    · linear_combination (e0.ra * Real.cos (η0 + r) * Real.sin e0.rot) * h1.sq + (e0.rb * Real.sin (η0 + r) * Real.cos e0.rot) * h2.sq
  have ht : ∀ (α r : ℝ), α • e.tangent (η + t1 * t2 * r) = (α * (t1 * t2)) • e0.tangent (η0 + r) := by
    intro α r
    obtain ⟨g1, g2⟩ := cs' r
    simp only [Ellipse.tangent, he, g1, g2, Prod.smul_mk, smul_eq_mul, Prod.mk.injEq]
    constructor <;> ring
  have hl : ∀ p, e.level p = e0.level p := by
    intro p
    have : ∀ {t a b : ℝ}, Sgn t → (a / (t * b)) ^ 2 = (a / b) ^ 2 := by
      rintro t a b (rfl | rfl)
      · simp
      · simp [div_neg]
    simp only [Ellipse.level, he, Ellipse.along]
    rw [this h1, this h2]
  have a1 : ∀ r : ℝ, t1 * t2 * δ0 * r / n = t1 * t2 * (δ0 * r / n) := fun r => by ring
  have ha : |t1 * t2 * δ0| = |δ0| := by
    rcases h1.mul h2 with h | h <;> rw [h] <;> simp
  obtain ⟨α, k1, k2⟩ := h.tangent
  refine ⟨⟨h.length, h.few, ?_, ?_, ⟨α * (t1 * t2), ?_, ?_⟩, ?_⟩, by rw [← ha]; exact h.step⟩
  · intro j hj; rw [h.start j hj, a1, hp]
  · intro j hj; rw [h.stop j hj, a1, hp]
  · have : α * (t1 * t2) * δ0 = α * (t1 * t2 * δ0) := by ring
    rw [this]; exact k1
  · intro j hj
    obtain ⟨u1, u2⟩ := k2 j hj
    rw [a1, ht] at u1 u2
    exact ⟨u1, u2⟩
  · intro c hc t h0 h1
    rw [← hl]
    exact h.near c hc t h0 h1

/-- Two turns of the same direction with the same cosine and sine. -/
theorem turn_unique {d d0 : ℝ} (hc : Real.cos d = Real.cos d0) (hs : Real.sin d = Real.sin d0)
    (h : (0 ≤ d ∧ d ≤ 2 * Real.pi ∧ 0 < d0 ∧ d0 < 2 * Real.pi) ∨ (-(2 * Real.pi) ≤ d ∧ d ≤ 0 ∧ -(2 * Real.pi) < d0 ∧ d0 < 0)) : d = d0 := by
  have := Real.Angle.cos_sin_inj hc hs
  obtain ⟨k, hk⟩ := Real.Angle.angle_eq_iff_two_pi_dvd_sub.1 this
  have hpi := Real.pi_pos
  have hlt : |d - d0| < 2 * Real.pi := by
    rw [abs_lt]
    rcases h with ⟨a, b, c, e⟩ | ⟨a, b, c, e⟩ <;> constructor <;> linarith
  rw [hk, abs_mul, abs_of_pos (by linarith)] at hlt
  have hk1 : |(k : ℝ)| < 1 := by
    by_contra hcon
    have := not_lt.1 hcon
    nlinarith
  have hk0 : k = 0 := by
    have : |k| < 1 := by exact_mod_cast hk1
    exact Int.abs_lt_one_iff.1 this
  rw [hk0] at hk
  simp at hk
  linarith

/-- The arc drawn for radii of any sign: that of their absolute values, in the direction of the sweep flag if the radii have the same sign, in the
other direction otherwise. -/
theorem signed_arc [GoEnv] {rx ry : ℝ} (hrx : rx ≠ 0) (hry : ry ≠ 0) (rot large sweep x0 y0 x y : ℝ) (hne : (x0, y0) ≠ (x, y)) :
    let r := rot * Real.pi / 180
    let c := findEllipseCenter rx ry r x0 y0 x y (GoFloat.eq sweep 0) (GoFloat.eq large 0)
    let p : ArcArgs ℝ := ⟨c.ra, c.rb, rot, large, sweep, x, y⟩
    ∃ e η δ n cs, IsArc |rx| |ry| r (decide (large ≠ 0)) (if 0 < rx * ry then decide (sweep ≠ 0) else decide (sweep = 0)) x0 y0 x y e η δ ∧
      Follows e η δ n cs ∧ addArc p c.cx c.cy x0 y0 = (cs.map storeCubic, x, y) := by
  intro r c p
  have hpi := Real.pi_pos
  obtain ⟨s1, h1, e1⟩ : ∃ s, Sgn s ∧ rx = s * |rx| := by
    rcases lt_or_gt_of_ne hrx with h | h
    · exact ⟨-1, .inr rfl, by rw [abs_of_neg h]; ring⟩
    · exact ⟨1, .inl rfl, by rw [abs_of_pos h]; ring⟩
  obtain ⟨s2, h2, e2⟩ : ∃ s, Sgn s ∧ ry = s * |ry| := by
    rcases lt_or_gt_of_ne hry with h | h
    · exact ⟨-1, .inr rfl, by rw [abs_of_neg h]; ring⟩
    · exact ⟨1, .inl rfl, by rw [abs_of_pos h]; ring⟩
  have p1 : 0 < |rx| := abs_pos.2 hrx
  have p2 : 0 < |ry| := abs_pos.2 hry
  have hss : (0 < rx * ry) ↔ s1 = s2 := by
    have : rx * ry = s1 * s2 * (|rx| * |ry|) := by rw [e1, e2]; simp only [abs_mul, abs_abs]; rcases h1 with rfl | rfl <;> rcases h2 with rfl | rfl <;> norm_num
    rw [this]
    have := mul_pos p1 p2
    rcases h1 with rfl | rfl <;> rcases h2 with rfl | rfl <;> norm_num <;> linarith
  obtain ⟨sw0, hsw⟩ : ∃ sw0 : ℝ, sw0 = if s1 = s2 then sweep else (if sweep = 0 then 1 else 0) := ⟨_, rfl⟩
  have hz : ∀ z : ℝ, GoFloat.eq z (0 : ℝ) = decide (z = 0) := by
    intro z
    by_cases hz : z = 0
    · rw [(real_eq _ _).2 hz]; simp [hz]
    · rw [(real_eq_false _ _).2 hz]; simp [hz]
  have hsw' : GoFloat.eq sw0 (0 : ℝ) = if s1 = s2 then GoFloat.eq sweep (0 : ℝ) else !GoFloat.eq sweep (0 : ℝ) := by
    rw [hz, hz, hsw]
    split
    · rfl
    · by_cases h : sweep = 0 <;> simp [h]
  obtain ⟨c1, c2, t1, t2, g1, g2, g3, g4, g5⟩ := centre_signed p1.ne' p2.ne' h1 h2 r x0 y0 x y (GoFloat.eq sweep 0) (GoFloat.eq large 0)
  rw [← e1, ← e2, ← hsw'] at c1 c2 g4 g5
  change c.cx = _ at c1
  change c.cy = _ at c2
  change c.ra = _ at g4
  change c.rb = _ at g5
  have hA := isArc_of (rot := rot) (large := large) (sweep := sw0) p1 p2 hne
  simp only at hA
  set c0 := findEllipseCenter |rx| |ry| r x0 y0 x y (GoFloat.eq sw0 0) (GoFloat.eq large 0) with hc0
  set e0 : Ellipse := ⟨c0.cx, c0.cy, c0.ra, c0.rb, r⟩ with he0
  obtain ⟨d1, ⟨n0, d2⟩, -⟩ := arcDeltaEta_real ⟨c0.ra, c0.rb, rot, large, sw0, x, y⟩ c0.cx c0.cy x0 y0
  change _ = etaOf e0 x0 y0 at d1
  change _ = etaOf e0 x y - etaOf e0 x0 y0 + _ at d2
  generalize (arcDeltaEta (⟨c0.ra, c0.rb, rot, large, sw0, x, y⟩ : ArcArgs ℝ) c0.cx c0.cy x0 y0).1 = η0 at *
  generalize (arcDeltaEta (⟨c0.ra, c0.rb, rot, large, sw0, x, y⟩ : ArcArgs ℝ) c0.cx c0.cy x0 y0).2 = δ0 at *
  obtain ⟨k, hk, k1, k2⟩ := hA.scale
  have k0 : 0 < k := lt_of_lt_of_le one_pos hk.1
  have ra0 : e0.ra ≠ 0 := by rw [k1]; positivity
  have rb0 : e0.rb ≠ 0 := by rw [k2]; positivity
  have T0 : e0.Through x0 y0 := by have := point_through e0 ra0 rb0 η0; rwa [hA.start] at this
  have T1 : e0.Through x y := by have := point_through e0 ra0 rb0 (η0 + δ0); rwa [hA.stop] at this
  obtain ⟨e, he⟩ : ∃ e : Ellipse, e = ⟨e0.cx, e0.cy, t1 * e0.ra, t2 * e0.rb, e0.rot⟩ := ⟨_, rfl⟩
  have hal : ∀ u v, e.along u v = e0.along u v := fun u v => by rw [he]; rfl
  have hsq : ∀ {t a b : ℝ}, Sgn t → a / (t * b) = t * (a / b) := by
    rintro t a b (rfl | rfl)
    · simp
    · simp [div_neg]
  have hT : ∀ {u v}, e0.Through u v → e.Through u v := by
    intro u v h
    have : e.ra = t1 * e0.ra ∧ e.rb = t2 * e0.rb := by rw [he]; exact ⟨rfl, rfl⟩
    unfold Ellipse.Through at h ⊢
    rw [hal, this.1, this.2, hsq g1, hsq g2, mul_pow, mul_pow, pow_two t1, pow_two t2, g1.sq, g2.sq, one_mul, one_mul]
    exact h
  have hcs : ∀ {u v}, e0.Through u v → Real.cos (etaOf e u v) = t1 * Real.cos (etaOf e0 u v) ∧
      Real.sin (etaOf e u v) = t2 * Real.sin (etaOf e0 u v) := by
    intro u v h
    have : e.ra = t1 * e0.ra ∧ e.rb = t2 * e0.rb := by rw [he]; exact ⟨rfl, rfl⟩
    obtain ⟨a1, a2⟩ := etaOf_spec e (hT h)
    obtain ⟨b1, b2⟩ := etaOf_spec e0 h
    rw [a1, a2, b1, b2, hal, this.1, this.2, hsq g1, hsq g2]
    exact ⟨rfl, rfl⟩
  have hee : (⟨c.cx, c.cy, c.ra, c.rb, r⟩ : Ellipse) = e := by rw [he, c1, c2, g4, g5]
  obtain ⟨f1, ⟨n1, f2⟩, f3⟩ := arcDeltaEta_real p c.cx c.cy x0 y0
  change _ = etaOf ⟨c.cx, c.cy, c.ra, c.rb, r⟩ x0 y0 at f1
  change _ = etaOf ⟨c.cx, c.cy, c.ra, c.rb, r⟩ x y - etaOf ⟨c.cx, c.cy, c.ra, c.rb, r⟩ x0 y0 + _ at f2
  change if sweep ≠ 0 then _ else _ at f3
  have ca0 : p.rx ≠ 0 := by show c.ra ≠ 0; rw [g4]; exact mul_ne_zero g1.ne ra0
  have cb0 : p.ry ≠ 0 := by show c.rb ≠ 0; rw [g5]; exact mul_ne_zero g2.ne rb0
  have hF := addArc_follows p c.cx c.cy x0 y0 ca0 cb0
  change (Ellipse.mk c.cx c.cy c.ra c.rb r).point _ = _ → (Ellipse.mk c.cx c.cy c.ra c.rb r).point _ = (x, y) →
    ∃ n cs, Follows ⟨c.cx, c.cy, c.ra, c.rb, r⟩ _ _ n cs ∧ addArc p c.cx c.cy x0 y0 = (cs.map storeCubic, x, y) at hF
  generalize (arcDeltaEta p c.cx c.cy x0 y0).1 = η at *
  generalize (arcDeltaEta p c.cx c.cy x0 y0).2 = δ at *
  rw [hee] at f1 f2 hF
  have hra : e.ra ≠ 0 := by rw [← hee]; exact ca0
  have hrb : e.rb ≠ 0 := by rw [← hee]; exact cb0
  have m0 := hcs T0
  have m1 := hcs T1
  have w0 := etaOf_spec e (hT T0)
  have w1 := etaOf_spec e (hT T1)
  have sum : η + δ = etaOf e x y + n1 * (2 * Real.pi) := by rw [f1, f2]; ring
  have sum0 : η0 + δ0 = etaOf e0 x y + n0 * (2 * Real.pi) := by rw [d1, d2]; ring
  have ce : Real.cos (η + δ) = Real.cos (etaOf e x y) := by rw [sum, Real.cos_add_int_mul_two_pi]
  have se : Real.sin (η + δ) = Real.sin (etaOf e x y) := by rw [sum, Real.sin_add_int_mul_two_pi]
  have ce0 : Real.cos (η0 + δ0) = Real.cos (etaOf e0 x y) := by rw [sum0, Real.cos_add_int_mul_two_pi]
  have se0 : Real.sin (η0 + δ0) = Real.sin (etaOf e0 x y) := by rw [sum0, Real.sin_add_int_mul_two_pi]
  rw [← d1, ← f1] at m0
  rw [← ce, ← se, ← ce0, ← se0] at m1
  have hcd : Real.cos δ = Real.cos δ0 := by
    have u : δ = (η + δ) - η := by ring
    have u0 : δ0 = (η0 + δ0) - η0 := by ring
    rw [u, u0, Real.cos_sub, Real.cos_sub, m0.1, m0.2, m1.1, m1.2]
    linear_combination (Real.cos (η0 + δ0) * Real.cos η0) * g1.sq + (Real.sin (η0 + δ0) * Real.sin η0) * g2.sq
  have hsd : Real.sin δ = t1 * t2 * Real.sin δ0 := by
    have u : δ = (η + δ) - η := by ring
    have u0 : δ0 = (η0 + δ0) - η0 := by ring
    rw [u, u0, Real.sin_sub, Real.sin_sub, m0.1, m0.2, m1.1, m1.2]
    ring
  have hδ : t1 * t2 * δ = δ0 := by
    have hdir := hA.direction
    have hturn := abs_lt.1 hA.turn
    rw [hz] at hdir
    apply turn_unique
    · rcases g1.mul g2 with h | h <;> rw [h] <;> simp [hcd]
    · rcases g1.mul g2 with h | h <;> rw [h] at hsd ⊢ <;> simp [hsd]
    · rw [g3]
      rw [hsw] at hdir
      by_cases hs : s1 = s2
      · have : s1 * s2 = 1 := by rw [hs]; exact h2.sq
        rw [this, one_mul]
        rw [if_pos hs] at hdir
        by_cases hw : sweep = 0
        · rw [if_neg (by simpa using hw)] at f3
          rw [hw] at hdir
          simp at hdir
          exact .inr ⟨f3.1, f3.2.le, hturn.1, hdir⟩
        · rw [if_pos hw] at f3
          simp only [hw, decide_false, Bool.not_false, if_true] at hdir
          exact .inl ⟨f3.1, f3.2.le, hdir, hturn.2⟩
      · have : s1 * s2 = -1 := by
          rcases h1 with rfl | rfl <;> rcases h2 with rfl | rfl <;> first | exact absurd rfl hs | norm_num
        rw [this]
        rw [if_neg hs] at hdir
        by_cases hw : sweep = 0
        · rw [if_neg (by simpa using hw)] at f3
          rw [if_pos hw] at hdir
          simp at hdir
          exact .inl ⟨by linarith [f3.2], by linarith [f3.1], hdir, hturn.2⟩
        · rw [if_pos hw] at f3
          rw [if_neg hw] at hdir
          simp at hdir
          exact .inr ⟨by linarith [f3.2], by linarith [f3.1], hturn.1, hdir⟩
  have hδ' : δ = t1 * t2 * δ0 := by
    rw [← hδ, ← mul_assoc, (g1.mul g2).sq, one_mul]
  obtain ⟨n, cs, F1, F2⟩ := hF (point_of_cos_sin e hra hrb (by rw [f1]; exact w0.1) (by rw [f1]; exact w0.2))
    (point_of_cos_sin e hra hrb (by rw [ce]; exact w1.1) (by rw [se]; exact w1.2))
  rw [hδ'] at F1
  refine ⟨e0, η0, δ0, n, cs, ?_, follows_signed g1 g2 he m0.1 m0.2 F1, F2⟩
  have b1 : (!GoFloat.eq large (0 : ℝ)) = decide (large ≠ 0) := by rw [hz]; simp
  have b2 : (!GoFloat.eq sw0 (0 : ℝ)) = if 0 < rx * ry then decide (sweep ≠ 0) else decide (sweep = 0) := by
    rw [hsw']
    by_cases hs : s1 = s2
    · rw [if_pos hs, if_pos (hss.2 hs), hz]; simp
    · rw [if_neg hs, if_neg (fun h => hs (hss.1 h)), hz]; simp
  rw [b1, b2] at hA
  exact hA

end GoSvg
