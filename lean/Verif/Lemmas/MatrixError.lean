import Verif.Lemmas.EllipseError
import Verif.Props.Float64Matrix

/-! Rounding errors of matrices. -/

namespace GoSvg.F64

open Spec

variable [Libm]

/-- A number of at most `2^l` in magnitude, computed with an error of at most `η` times that. -/
def Ent (η : ℝ) (l : Nat) (x : F64) (X : ℝ) : Prop := Near (η * 2 ^ l) x X ∧ |X| ≤ 2 ^ l

structure MatRel (η : ℝ) (l t : Nat) (m : Matrix2D F64) (M : Matrix2D ℝ) : Prop where
  a : Ent η l m.a M.a
  b : Ent η l m.b M.b
  c : Ent η l m.c M.c
  d : Ent η l m.d M.d
  e : Ent η t m.e M.e
  f : Ent η t m.f M.f

omit [Libm] in
theorem Ent.mono {η η' : ℝ} {l l' : Nat} {x : F64} {X : ℝ} (h : Ent η l x X) (h0 : 0 ≤ η) (hη : η ≤ η') (hl : l ≤ l') : Ent η' l' x X := by
  have hp : (2 : ℝ) ^ l ≤ 2 ^ l' := pow_le_pow_right₀ (by norm_num) hl
  exact ⟨h.1.mono (mul_le_mul hη hp (by positivity) (h0.trans hη)), h.2.trans hp⟩

theorem ent_mul {η θ : ℝ} {l b : Nat} {x y : F64} {X Y : ℝ} (hx : Ent η l x X) (hy : Ent θ b y Y) (h0 : 0 ≤ η) (h1 : η ≤ 1) (t0 : 0 ≤ θ) (t1 : θ ≤ 1)
    (hb : l + b ≤ 50) : Ent (η + θ + η * θ + 1 / 2 ^ 52) (l + b) (x *. y) (X * Y) := by
  have pl : (0 : ℝ) < 2 ^ l := by positivity
  have pb : (0 : ℝ) < 2 ^ b := by positivity
  have e1 : (2 : ℝ) ^ (l + b) = 2 ^ l * 2 ^ b := pow_add _ _ _
  have e2 : (2 : ℝ) ^ (l + b + 2) = 4 * (2 ^ l * 2 ^ b) := by rw [pow_add, e1]; ring
  have hXY : |X * Y| ≤ 2 ^ l * 2 ^ b := by rw [abs_mul]; exact mul_le_mul hx.2 hy.2 (abs_nonneg _) pl.le
  have k1 : η * 2 ^ l * |Y| ≤ η * (2 ^ l * 2 ^ b) := by
    rw [← mul_assoc]; exact mul_le_mul_of_nonneg_left hy.2 (by positivity)
  have k2 : |X| * (θ * 2 ^ b) ≤ θ * (2 ^ l * 2 ^ b) := by
    have := mul_le_mul_of_nonneg_right hx.2 (by positivity : 0 ≤ θ * 2 ^ b)
    linarith
  have k3 : η * 2 ^ l * (θ * 2 ^ b) = η * θ * (2 ^ l * 2 ^ b) := by ring
  have ηθ : η * θ ≤ 1 := mul_le_one₀ h1 t0 t1
  have P : 0 < (2 : ℝ) ^ l * 2 ^ b := by positivity
  have m1 := mul_le_mul_of_nonneg_right h1 P.le
  have m2 := mul_le_mul_of_nonneg_right t1 P.le
  have m3 := mul_le_mul_of_nonneg_right ηθ P.le
  have := near_mul hx.1 hy.1 (E := l + b + 2) (by omega) (by rw [e2, k3]; linarith)
  refine ⟨this.mono ?_, by rw [e1]; exact hXY⟩
  rw [e2, k3, e1]
  have : (4 : ℝ) * (2 ^ l * 2 ^ b) / 2 ^ 54 = 1 / 2 ^ 52 * (2 ^ l * 2 ^ b) := by ring
  rw [this]
  linarith

theorem ent_add {η : ℝ} {l : Nat} {x y : F64} {X Y : ℝ} (hx : Ent η l x X) (hy : Ent η l y Y) (h1 : η ≤ 1) (hl : l ≤ 50) :
    Ent (η + 1 / 2 ^ 53) (l + 1) (x +. y) (X + Y) := by
  have pl : (0 : ℝ) < 2 ^ l := by positivity
  have e1 : (2 : ℝ) ^ (l + 1) = 2 * 2 ^ l := by rw [pow_add]; ring
  have e2 : (2 : ℝ) ^ (l + 2) = 4 * 2 ^ l := by rw [pow_add]; ring
  have hXY := abs_add_le X Y
  have hx2 := hx.2
  have hy2 := hy.2
  have m1 := mul_le_mul_of_nonneg_right h1 pl.le
  have := near_add hx.1 hy.1 (E := l + 2) (by omega) (by rw [e2]; linarith)
  refine ⟨this.mono ?_, by rw [e1]; linarith⟩
  rw [e2, e1]
  have : (4 : ℝ) * 2 ^ l / 2 ^ 54 = 1 / 2 ^ 53 * (2 * 2 ^ l) := by ring
  rw [this]
  linarith

/-- The constants of the error analysis. -/
theorem step_sum {η : ℝ} (h0 : 0 ≤ η) (h1 : η ≤ 1 / 2 ^ 7) : η + 1 / 2 ^ 46 + η * (1 / 2 ^ 46) + 1 / 2 ^ 52 + 1 / 2 ^ 53 + 1 / 2 ^ 53 ≤ η + 1 / 2 ^ 45 := by
  have : η * (1 / 2 ^ 46) ≤ 1 / 2 ^ 7 * (1 / 2 ^ 46) := mul_le_mul_of_nonneg_right h1 (by positivity)
  norm_num at this ⊢
  linarith

theorem mult_rel {η : ℝ} {l t b c : Nat} {m k : Matrix2D F64} {M K : Matrix2D ℝ} (hm : MatRel η l t m M) (hk : MatRel (1 / 2 ^ 46) b c k K)
    (h0 : 0 ≤ η) (h1 : η ≤ 1 / 2 ^ 7) {T : Nat} (ht1 : l + c + 1 ≤ T) (ht2 : t + b ≤ T) (hT : T ≤ 49) (hl : l + b ≤ 49) :
    MatRel (η + 1 / 2 ^ 45) (l + b + 1) (T + 1) (m.mult k) (M.mult K) := by
  have hs := step_sum h0 h1
  have h1' : η ≤ 1 := h1.trans (by norm_num)
  set ζ : ℝ := η + 1 / 2 ^ 46 + η * (1 / 2 ^ 46) + 1 / 2 ^ 52 with hζ
  have ζ0 : 0 ≤ ζ := by positivity
  have ζ1 : ζ + 1 / 2 ^ 53 ≤ 1 := by norm_num at hs h1 ⊢; linarith
  have ζ1' : ζ ≤ 1 := by linarith [(by positivity : (0 : ℝ) ≤ 1 / 2 ^ 53)]
  have s1 : ζ + 1 / 2 ^ 53 ≤ η + 1 / 2 ^ 45 := by linarith [(by positivity : (0 : ℝ) ≤ 1 / 2 ^ 53)]
  have mul : ∀ {i j : Nat} {x y : F64} {X Y : ℝ}, Ent η i x X → Ent (1 / 2 ^ 46) j y Y → i + j ≤ 50 → Ent ζ (i + j) (x *. y) (X * Y) :=
    fun hx hy h => ent_mul hx hy h0 h1' (by positivity) (by norm_num) h
  have two : ∀ {x y z w : F64} {X Y Z W : ℝ}, Ent η l x X → Ent (1 / 2 ^ 46) b y Y → Ent η l z Z → Ent (1 / 2 ^ 46) b w W →
      Ent (η + 1 / 2 ^ 45) (l + b + 1) (x *. y +. z *. w) (X * Y + Z * W) := fun hx hy hz hw =>
    (ent_add (mul hx hy (by omega)) (mul hz hw (by omega)) ζ1' (by omega)).mono (by positivity) s1 le_rfl
  have three : ∀ {x y z w u v : F64} {X Y Z W U V : ℝ}, Ent η l x X → Ent (1 / 2 ^ 46) c y Y → Ent η l z Z → Ent (1 / 2 ^ 46) c w W →
      Ent η t u U → Ent (1 / 2 ^ 46) b v V → Ent (η + 1 / 2 ^ 45) (T + 1) (x *. y +. z *. w +. u *. v) (X * Y + Z * W + U * V) := by
    intro x y z w u v X Y Z W U V hx hy hz hw hu hv
    have q1 := (ent_add (mul hx hy (by omega)) (mul hz hw (by omega)) ζ1' (by omega)).mono (by positivity) le_rfl ht1
    have q2 := (mul hu hv (by omega)).mono ζ0 (by linarith [(by positivity : (0 : ℝ) ≤ 1 / 2 ^ 53)] : ζ ≤ ζ + 1 / 2 ^ 53) ht2
    exact (ent_add q1 q2 ζ1 (by omega)).mono (by positivity) hs le_rfl
  exact ⟨two hm.a hk.a hm.c hk.b, two hm.b hk.a hm.d hk.b, two hm.a hk.c hm.c hk.d, two hm.b hk.c hm.d hk.d,
    three hm.a hk.e hm.c hk.f hm.e hk.a, three hm.b hk.e hm.d hk.f hm.f hk.d⟩

theorem translate_rel {η : ℝ} {l t c : Nat} {m : Matrix2D F64} {M : Matrix2D ℝ} (hm : MatRel η l t m M) (h0 : 0 ≤ η) (h1 : η ≤ 1 / 2 ^ 7) {x y : F64} {X Y : ℝ}
    (hx : Ent (1 / 2 ^ 46) c x X) (hy : Ent (1 / 2 ^ 46) c y Y) (hc : c ≤ t) (ht : t ≤ 50) :
    MatRel (η + 1 / 2 ^ 45) l (t + 1) (m.translate x y) (M.translate X Y) := by
  have h46 : (0 : ℝ) ≤ 1 / 2 ^ 46 := by positivity
  have lin : ∀ {z : F64} {Z : ℝ}, Ent η l z Z → Ent (η + 1 / 2 ^ 45) l z Z := fun h => h.mono h0 (by linarith [(by positivity : (0 : ℝ) ≤ 1 / 2 ^ 45)]) le_rfl
  have tr : ∀ {z w : F64} {Z W : ℝ}, Ent η t z Z → Ent (1 / 2 ^ 46) c w W → Ent (η + 1 / 2 ^ 45) (t + 1) (z +. w) (Z + W) := by
    intro z w Z W hz hw
    have := ent_add (hz.mono h0 (by linarith : η ≤ η + 1 / 2 ^ 46) le_rfl) (hw.mono h46 (by linarith : 1 / 2 ^ 46 ≤ η + 1 / 2 ^ 46) hc)
      (by norm_num at h1 ⊢; linarith) ht
    exact this.mono (by positivity) (by norm_num; linarith) le_rfl
  exact ⟨lin hm.a, lin hm.b, lin hm.c, lin hm.d, tr hm.e hx, tr hm.f hy⟩

theorem scale_rel {η : ℝ} {l t b : Nat} {m : Matrix2D F64} {M : Matrix2D ℝ} (hm : MatRel η l t m M) (h0 : 0 ≤ η) (h1 : η ≤ 1 / 2 ^ 7) {x y : F64} {X Y : ℝ}
    (hx : Ent (1 / 2 ^ 46) b x X) (hy : Ent (1 / 2 ^ 46) b y Y) (hl : l + b ≤ 50) (ht : t + b ≤ 50) :
    MatRel (η + 1 / 2 ^ 45) (l + b) (t + b) (m.scale x y) (M.scale X Y) := by
  have hs := step_sum h0 h1
  have mul : ∀ {i : Nat} {z w : F64} {Z W : ℝ}, Ent η i z Z → Ent (1 / 2 ^ 46) b w W → i + b ≤ 50 → Ent (η + 1 / 2 ^ 45) (i + b) (z *. w) (Z * W) := by
    intro i z w Z W hz hw h
    exact (ent_mul hz hw h0 (h1.trans (by norm_num)) (by positivity) (by norm_num) h).mono (by positivity)
      (by linarith [(by positivity : (0 : ℝ) ≤ 1 / 2 ^ 53)]) le_rfl
  exact ⟨mul hm.a hx hl, mul hm.b hy hl, mul hm.c hx hl, mul hm.d hy hl, mul hm.e hx ht, mul hm.f hy ht⟩

/-! ### Angles -/

theorem near_pi (hL : Accurate) : Near (1 / 2 ^ 51) (GoFloat.piMul 1 : F64) Real.pi := by
  have h := goPi_near
  have hpi := Real.pi_lt_d2
  have hpi0 := Real.pi_pos
  have e : (GoFloat.piMul 1 : F64) = roundRat false (1 * goPi) := hL.piMul 1
  rw [e, one_mul]
  have hb : |Real.pi| + 1 / 10 ^ 19 ≤ 2 ^ 2 := by
    rw [abs_of_pos hpi0]
    norm_num at hpi ⊢
    linarith
  have hd : |(goPi : ℝ) - Real.pi| ≤ 1 / 10 ^ 19 := by linarith
  have := near_round (roundRat_nearest false (pow_bound (E := 2) (by norm_num) (abs_le_of_near hd hb))) hd (by norm_num) hb
  exact this.mono (by norm_num)

/-- Degrees to radians, for angles of up to `2^k` degrees read with one rounding. -/
theorem near_rad (hL : Accurate) {x : F64} {a : ℝ} {k E : Nat} (hk : k ≤ 9) (hx : Near (2 ^ k / 2 ^ 54) x a) (ha : |a| ≤ 2 ^ k) (hE : E ≤ 52)
    (hb : |a * Real.pi / 180| + 2 ^ k / 2 ^ 57 ≤ 2 ^ E) :
    Near (2 ^ k / 2 ^ 57 + 2 ^ E / 2 ^ 54) (x *. GoFloat.piMul 1 /. num 180) (a * Real.pi / 180) := by
  have hpi := Real.pi_lt_d2
  have hpi0 := Real.pi_pos
  have pk : (0 : ℝ) < 2 ^ k := by positivity
  have e2 : (2 : ℝ) ^ (k + 2) = 4 * 2 ^ k := by rw [pow_add]; ring
  have ap : |a * Real.pi| ≤ 3.15 * 2 ^ k := by
    rw [abs_mul, abs_of_pos hpi0]
    have := mul_le_mul ha hpi.le hpi0.le pk.le
    linarith
  have er : 2 ^ k / 2 ^ 54 * |Real.pi| + |a| * (1 / 2 ^ 51) + 2 ^ k / 2 ^ 54 * (1 / 2 ^ 51) ≤ 12 / 2 ^ 54 * 2 ^ k := by
    rw [abs_of_pos hpi0]
    have h1 : (2 : ℝ) ^ k / 2 ^ 54 * Real.pi ≤ 2 ^ k / 2 ^ 54 * 3.15 := mul_le_mul_of_nonneg_left hpi.le (by positivity)
    have h2 := mul_le_mul_of_nonneg_right ha (by positivity : (0 : ℝ) ≤ 1 / 2 ^ 51)
    have h3 : (2 : ℝ) ^ k / 2 ^ 54 * 3.15 + 2 ^ k * (1 / 2 ^ 51) + 2 ^ k / 2 ^ 54 * (1 / 2 ^ 51) ≤ 12 / 2 ^ 54 * 2 ^ k := by
      norm_num
      linarith
    linarith
  have n1 := near_mul hx (near_pi hL) (E := k + 2) (by omega) (by rw [e2]; norm_num at er ap ⊢; linarith)
  have n1 : Near (16 / 2 ^ 54 * 2 ^ k) (x *. GoFloat.piMul 1) (a * Real.pi) := n1.mono (by rw [e2]; norm_num at er ⊢; linarith)
  have h180 : Near 0 (num (180 : ℕ) : F64) ((180 : ℕ) : ℝ) := near_num (by norm_num)
  push_cast at h180
  have n2 := near_div n1 h180 (E := E) hE (by norm_num) (by
    rw [abs_of_pos (by norm_num : (0 : ℝ) < 180)]
    norm_num at hb ⊢
    linarith)
  refine n2.mono ?_
  rw [abs_of_pos (by norm_num : (0 : ℝ) < 180)]
  norm_num
  linarith

theorem near_turned (hL : Accurate) {x : F64} {a : ℝ} (hx : Near (2 ^ 9 / 2 ^ 54) x a) (ha : |a| ≤ 360) :
    Near (1 / 2 ^ 46) (GoFloat.cos (x *. GoFloat.piMul 1 /. num 180)) (Real.cos (rad a)) ∧
    Near (1 / 2 ^ 46) (GoFloat.sin (x *. GoFloat.piMul 1 /. num 180)) (Real.sin (rad a)) := by
  have hpi := Real.pi_lt_d2
  have hpi0 := Real.pi_pos
  have ar : |a * Real.pi / 180| ≤ 6.5 := by
    rw [abs_div, abs_mul, abs_of_pos hpi0, abs_of_pos (by norm_num : (0 : ℝ) < 180), div_le_iff₀ (by norm_num)]
    have := mul_le_mul ha hpi.le hpi0.le (by norm_num)
    norm_num at this ⊢
    linarith
  have n := near_rad hL (E := 3) (by norm_num) hx (by norm_num; linarith) (by norm_num) (by norm_num at ar ⊢; linarith)
  have hb : |a * Real.pi / 180| + (2 ^ 9 / 2 ^ 57 + 2 ^ 3 / 2 ^ 54) ≤ 8 := by norm_num at ar ⊢; linarith
  exact ⟨(near_cos hL n hb).mono (by norm_num), (near_sin hL n hb).mono (by norm_num)⟩

omit [Libm] in
theorem cos_ge_half {a : ℝ} (h : |a| ≤ 1) : 1 / 2 ≤ Real.cos a := by
  have := Real.one_sub_sq_div_two_le_cos (x := a)
  have h2 : a ^ 2 ≤ 1 := by rw [← sq_abs]; nlinarith [abs_nonneg a]
  linarith

omit [Libm] in
theorem abs_tan_sub_le_four {a b : ℝ} (ha : |a| ≤ 1) (hb : |b| ≤ 1) : |Real.tan a - Real.tan b| ≤ 4 * |a - b| := by
  have ca := cos_ge_half ha
  have cb := cos_ge_half hb
  have e : Real.tan a - Real.tan b = Real.sin (a - b) / (Real.cos a * Real.cos b) := by
    rw [Real.tan_eq_sin_div_cos, Real.tan_eq_sin_div_cos, Real.sin_sub]
    field_simp
  have hp : 1 / 4 ≤ Real.cos a * Real.cos b := by nlinarith
  rw [e, abs_div, abs_of_pos (by linarith : 0 < Real.cos a * Real.cos b), div_le_iff₀ (by linarith)]
  have := Real.abs_sin_le_abs (x := a - b)
  nlinarith [abs_nonneg (a - b)]

theorem near_skewed (hL : Accurate) {x : F64} {a : ℝ} (hx : Near (2 ^ 6 / 2 ^ 54) x a) (ha : |a| ≤ 45) :
    Near (1 / 2 ^ 46) (GoFloat.tan (x *. GoFloat.piMul 1 /. num 180)) (Real.tan (rad a)) ∧ |Real.tan (rad a)| ≤ 1 := by
  have hpi := Real.pi_lt_d2
  have hpi0 := Real.pi_pos
  have ar : |a * Real.pi / 180| ≤ Real.pi / 4 := by
    rw [abs_div, abs_mul, abs_of_pos hpi0, abs_of_pos (by norm_num : (0 : ℝ) < 180), div_le_iff₀ (by norm_num)]
    have := mul_le_mul_of_nonneg_right ha hpi0.le
    linarith
  obtain ⟨p, h1, h2⟩ := near_rad hL (E := 0) (by norm_num) hx (by norm_num; linarith) (by norm_num) (by norm_num at hpi ⊢; linarith)
  have hp : |(p : ℝ)| ≤ 1 := by
    have := abs_sub_abs_le_abs_sub (p : ℝ) (a * Real.pi / 180)
    norm_num at h2 hpi
    linarith
  obtain ⟨q, q1, q2⟩ := hL.tan _ p h1 (by exact_mod_cast hp)
  refine ⟨⟨q, q1, ?_⟩, ?_⟩
  · have := abs_sub_le (q : ℝ) (Real.tan p) (Real.tan (rad a))
    have h3 := abs_tan_sub_le_four hp (b := rad a) (by unfold rad; norm_num at hpi; linarith)
    unfold rad at this h3 ⊢
    norm_num at h2 q2 ⊢
    linarith
  · have hab := abs_le.1 ar
    have hc : 0 < Real.cos (rad a) := Real.cos_pos_of_mem_Ioo ⟨by unfold rad; linarith, by unfold rad; linarith⟩
    rw [abs_le]
    have t : Real.tan (Real.pi / 4) = 1 := Real.tan_pi_div_four
    constructor
    · rw [← t, ← Real.tan_neg]
      exact Real.strictMonoOn_tan.monotoneOn ⟨by linarith, by linarith⟩ ⟨by unfold rad; linarith, by unfold rad; linarith⟩ hab.1
    · rw [← t]
      exact Real.strictMonoOn_tan.monotoneOn ⟨by unfold rad; linarith, by unfold rad; linarith⟩ ⟨by linarith, by linarith⟩ hab.2

end GoSvg.F64
