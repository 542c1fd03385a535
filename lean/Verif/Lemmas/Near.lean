import Verif.Lemmas.Round
import Verif.Lemmas.GridPath

/-! Rounding errors of binary64: how far a computed number is from the number that exact arithmetic computes. -/

namespace GoSvg.F64

open Spec

/-- Up to `2^E` a nearest number is at most `2^(E-54)` off. -/
theorem nearest_err {x : F64} {p q : ℚ} (hn : Nearest x q) (hx : Is x p) {E : Nat} (hE : E ≤ 52) (hq : |q| ≤ 2 ^ E) :
    |p - q| ≤ 2 ^ E / 2 ^ 54 := by
  obtain ⟨p', hp', hn⟩ := hn
  have := is_unique hx hp'
  subst this
  obtain ⟨k, hk⟩ : ∃ k, E + k = 53 := ⟨53 - E, by omega⟩
  have h53 : (2 : ℚ) ^ E * 2 ^ k = 2 ^ 53 := by rw [← pow_add, hk]
  have hkp : (0 : ℚ) < 2 ^ k := by positivity
  set n : ℤ := round (q * 2 ^ k) with hnd
  have hr : |q * 2 ^ k - n| ≤ 1 / 2 := abs_sub_round _
  have hqn : |(n : ℚ) / 2 ^ k - q| ≤ 2 ^ E / 2 ^ 54 := by
    have e : (n : ℚ) / 2 ^ k - q = -(q * 2 ^ k - n) / 2 ^ k := by field_simp; ring
    rw [e, abs_div, abs_neg, abs_of_pos hkp, div_le_iff₀ hkp]
    refine hr.trans (le_of_eq ?_)
    have : (2 : ℚ) ^ E / 2 ^ 54 * 2 ^ k = (2 ^ E * 2 ^ k) / 2 ^ 54 := by ring
    rw [this, h53]
    norm_num
  refine (hn _ ?_).trans hqn
  have hq2 : |q * 2 ^ k| ≤ 2 ^ 53 := by
    rw [abs_mul, abs_of_pos hkp, ← h53]
    exact mul_le_mul_of_nonneg_right hq hkp.le
  have hb := abs_le.1 hr
  have hq3 := abs_le.1 hq2
  have l1 : n ≤ 2 ^ 53 := by
    by_contra hc
    have hc : 2 ^ 53 + 1 ≤ n := by omega
    have : ((2 ^ 53 + 1 : ℤ) : ℚ) ≤ n := by exact_mod_cast hc
    push_cast at this
    linarith
  have l0 : -2 ^ 53 ≤ n := by
    by_contra hc
    have hc : n ≤ -2 ^ 53 - 1 := by omega
    have : (n : ℚ) ≤ ((-2 ^ 53 - 1 : ℤ) : ℚ) := by exact_mod_cast hc
    push_cast at this
    linarith
  have hlt : (2 : ℤ) ^ E < 2 ^ 53 := by
    exact pow_lt_pow_right₀ (by norm_num) (by omega)
  rcases l1.eq_or_lt with h | h
  · have e : (n : ℚ) / 2 ^ k = ((2 ^ E : ℤ) : ℚ) / 2 ^ 0 := by
      rw [h, Int.cast_pow, Int.cast_pow, Int.cast_ofNat, ← h53]; field_simp
    rw [e]
    exact rep_grid (by norm_num) (by rw [abs_of_pos (by positivity)]; exact hlt)
  · rcases l0.eq_or_lt with h' | h'
    · have e : (n : ℚ) / 2 ^ k = ((-2 ^ E : ℤ) : ℚ) / 2 ^ 0 := by
        rw [← h', Int.cast_neg, Int.cast_neg, Int.cast_pow, Int.cast_pow, Int.cast_ofNat, ← h53]; field_simp
      rw [e]
      exact rep_grid (by norm_num) (by rw [abs_neg, abs_of_pos (by positivity)]; exact hlt)
    · exact rep_grid (by omega) (abs_lt.2 ⟨h', h⟩)

variable [Libm]

theorem pow_bound {q : ℚ} {E : Nat} (hE : E ≤ 52) (h : |q| ≤ 2 ^ E) : |q| < 2 ^ (1024 : Int) - 2 ^ (970 : Int) := by
  apply big_bound
  refine h.trans ?_
  rw [← zpow_natCast]
  exact zpow_le_zpow_right₀ (by norm_num) (by omega)

theorem add_nearest {x y : F64} {p q : ℚ} (hx : Is x p) (hy : Is y q) (h : |p + q| < 2 ^ (1024 : Int) - 2 ^ (970 : Int)) :
    Nearest (x +. y) (p + q) := by
  have h1 := is_val hx
  have h2 := is_val hy
  obtain ⟨s, m, e, rfl, -⟩ := hx
  obtain ⟨t, n, f, rfl, -⟩ := hy
  change Nearest (add _ _) _
  simp only [add, h1, h2]
  exact roundRat_nearest _ h

theorem sub_nearest {x y : F64} {p q : ℚ} (hx : Is x p) (hy : Is y q) (h : |p - q| < 2 ^ (1024 : Int) - 2 ^ (970 : Int)) :
    Nearest (x -. y) (p - q) := by
  have : Nearest (x +. F64.neg y) (p + -q) := add_nearest hx (is_neg hy) (by rwa [← sub_eq_add_neg])
  rw [← sub_eq_add_neg] at this
  exact this

theorem div_nearest {x y : F64} {p q : ℚ} (hx : Is x p) (hy : Is y q) (hq : q ≠ 0) (h : |p / q| < 2 ^ (1024 : Int) - 2 ^ (970 : Int)) :
    Nearest (x /. y) (p / q) := by
  have h1 := is_val hx
  have h2 := is_val hy
  obtain ⟨s, m, e, rfl, -⟩ := hx
  obtain ⟨t, n, f, rfl, hv, hq'⟩ := hy
  have hn : n ≠ 0 := by
    rintro rfl
    apply hq
    rw [← hq']
    cases t <;> simp
  change Nearest (div _ _) _
  simp only [div, h1, h2]
  rw [if_neg (by simpa [isZero] using hn)]
  exact roundRat_nearest _ h

/-- The finite number `x` of binary64 is at most `d` away from `r`. -/
def Near (d : ℝ) (x : F64) (r : ℝ) : Prop := ∃ p : ℚ, Is x p ∧ |(p : ℝ) - r| ≤ d

omit [Libm] in
theorem Near.mono {d d' : ℝ} {x : F64} {r : ℝ} (h : Near d x r) (hd : d ≤ d') : Near d' x r := by
  obtain ⟨p, h1, h2⟩ := h
  exact ⟨p, h1, h2.trans hd⟩

omit [Libm] in
theorem near_is {x : F64} {q : ℚ} (h : Is x q) : Near 0 x (q : ℝ) := ⟨q, h, by simp⟩

omit [Libm] in
/-- Rounding adds `2^(E-54)` to the error of a number of magnitude up to `2^E`. -/
theorem near_round {d : ℝ} {x : F64} {q : ℚ} {r : ℝ} (hn : Nearest x q) (h : |(q : ℝ) - r| ≤ d) {E : Nat} (hE : E ≤ 52)
    (hb : |r| + d ≤ 2 ^ E) : Near (d + 2 ^ E / 2 ^ 54) x r := by
  obtain ⟨p, hp, -⟩ := id hn
  have hq : |q| ≤ 2 ^ E := by
    have : |(q : ℝ)| ≤ 2 ^ E := by
      have := abs_sub_abs_le_abs_sub (q : ℝ) r
      linarith
    exact_mod_cast this
  have h1 := nearest_err hn hp hE hq
  have h2 : |(p : ℝ) - q| ≤ 2 ^ E / 2 ^ 54 := by
    have : ((|p - q| : ℚ) : ℝ) ≤ ((2 ^ E / 2 ^ 54 : ℚ) : ℝ) := by exact_mod_cast h1
    push_cast at this
    exact this
  refine ⟨p, hp, ?_⟩
  have := abs_sub_le (p : ℝ) q r
  linarith

omit [Libm] in
theorem abs_le_of_near {d : ℝ} {q : ℚ} {r : ℝ} (h : |(q : ℝ) - r| ≤ d) {E : Nat} (hb : |r| + d ≤ 2 ^ E) : |q| ≤ 2 ^ E := by
  have : |(q : ℝ)| ≤ 2 ^ E := by
    have := abs_sub_abs_le_abs_sub (q : ℝ) r
    linarith
  exact_mod_cast this

theorem near_add {d e : ℝ} {x y : F64} {r s : ℝ} (hx : Near d x r) (hy : Near e y s) {E : Nat} (hE : E ≤ 52)
    (hb : |r + s| + (d + e) ≤ 2 ^ E) : Near (d + e + 2 ^ E / 2 ^ 54) (x +. y) (r + s) := by
  obtain ⟨p, h1, h2⟩ := hx
  obtain ⟨q, h3, h4⟩ := hy
  have h5 : |((p + q : ℚ) : ℝ) - (r + s)| ≤ d + e := by
    have e : ((p + q : ℚ) : ℝ) - (r + s) = ((p : ℝ) - r) + ((q : ℝ) - s) := by push_cast; ring
    rw [e]
    exact (abs_add_le _ _).trans (by linarith)
  exact near_round (add_nearest h1 h3 (pow_bound hE (abs_le_of_near h5 hb))) h5 hE hb

theorem near_sub {d e : ℝ} {x y : F64} {r s : ℝ} (hx : Near d x r) (hy : Near e y s) {E : Nat} (hE : E ≤ 52)
    (hb : |r - s| + (d + e) ≤ 2 ^ E) : Near (d + e + 2 ^ E / 2 ^ 54) (x -. y) (r - s) := by
  obtain ⟨p, h1, h2⟩ := hx
  obtain ⟨q, h3, h4⟩ := hy
  have h5 : |((p - q : ℚ) : ℝ) - (r - s)| ≤ d + e := by
    have e : ((p - q : ℚ) : ℝ) - (r - s) = ((p : ℝ) - r) - ((q : ℝ) - s) := by push_cast; ring
    rw [e]
    exact (abs_sub _ _).trans (by linarith)
  exact near_round (sub_nearest h1 h3 (pow_bound hE (abs_le_of_near h5 hb))) h5 hE hb

theorem near_mul {d e : ℝ} {x y : F64} {r s : ℝ} (hx : Near d x r) (hy : Near e y s) {E : Nat} (hE : E ≤ 52)
    (hb : |r * s| + (d * |s| + |r| * e + d * e) ≤ 2 ^ E) : Near (d * |s| + |r| * e + d * e + 2 ^ E / 2 ^ 54) (x *. y) (r * s) := by
  obtain ⟨p, h1, h2⟩ := hx
  obtain ⟨q, h3, h4⟩ := hy
  have h5 : |((p * q : ℚ) : ℝ) - (r * s)| ≤ d * |s| + |r| * e + d * e := by
    have e' : ((p * q : ℚ) : ℝ) - (r * s) = ((p : ℝ) - r) * s + r * ((q : ℝ) - s) + ((p : ℝ) - r) * ((q : ℝ) - s) := by push_cast; ring
    rw [e']
    have t1 := abs_add_le (((p : ℝ) - r) * s + r * ((q : ℝ) - s)) (((p : ℝ) - r) * ((q : ℝ) - s))
    have t2 := abs_add_le (((p : ℝ) - r) * s) (r * ((q : ℝ) - s))
    rw [abs_mul, abs_mul] at t2
    rw [abs_mul ((p : ℝ) - r) ((q : ℝ) - s)] at t1
    have t3 : |(p : ℝ) - r| * |s| ≤ d * |s| := mul_le_mul_of_nonneg_right h2 (abs_nonneg _)
    have t4 : |r| * |(q : ℝ) - s| ≤ |r| * e := mul_le_mul_of_nonneg_left h4 (abs_nonneg _)
    have t5 : |(p : ℝ) - r| * |(q : ℝ) - s| ≤ d * e := mul_le_mul h2 h4 (abs_nonneg _) ((abs_nonneg _).trans h2)
    linarith
  exact near_round (mul_nearest h1 h3 (pow_bound hE (abs_le_of_near h5 hb))) h5 hE hb

theorem near_div {d e : ℝ} {x y : F64} {r s : ℝ} (hx : Near d x r) (hy : Near e y s) {E : Nat} (hE : E ≤ 52) (hs : e < |s|)
    (hb : |r / s| + (d + |r / s| * e) / (|s| - e) ≤ 2 ^ E) :
    Near ((d + |r / s| * e) / (|s| - e) + 2 ^ E / 2 ^ 54) (x /. y) (r / s) := by
  obtain ⟨p, h1, h2⟩ := hx
  obtain ⟨q, h3, h4⟩ := hy
  have hq : |s| - e ≤ |(q : ℝ)| := by
    have := abs_sub_abs_le_abs_sub s (q : ℝ)
    rw [abs_sub_comm] at this
    linarith
  have hqp : 0 < |(q : ℝ)| := by linarith
  have hq0 : (q : ℝ) ≠ 0 := abs_pos.1 hqp
  have he : 0 ≤ e := (abs_nonneg _).trans h4
  have hs0 : s ≠ 0 := abs_pos.1 (by linarith)
  have h5 : |((p / q : ℚ) : ℝ) - (r / s)| ≤ (d + |r / s| * e) / (|s| - e) := by
    have e' : ((p / q : ℚ) : ℝ) - (r / s) = (((p : ℝ) - r) - r / s * ((q : ℝ) - s)) / q := by push_cast; field_simp; ring
    rw [e', abs_div]
    have t : |((p : ℝ) - r) - r / s * ((q : ℝ) - s)| ≤ d + |r / s| * e := by
      refine (abs_sub _ _).trans ?_
      rw [abs_mul]
      have := mul_le_mul_of_nonneg_left h4 (abs_nonneg (r / s))
      linarith
    exact div_le_div₀ ((abs_nonneg _).trans t) t (by linarith) hq
  exact near_round (div_nearest h1 h3 (by exact_mod_cast hq0) (pow_bound hE (abs_le_of_near h5 hb))) h5 hE hb

/-- What is stored for a number close to `r` is within a sixty-fourth and the error of `r`. -/
theorem near_fix {d : ℝ} {x : F64} {r : ℝ} (h : Near d x r) (hb : |r| + d < 2 ^ 25) : |(toFix x / 64 : ℝ) - r| < 1 / 64 + d := by
  obtain ⟨p, h1, h2⟩ := h
  have hp := abs_sub_abs_le_abs_sub (p : ℝ) r
  have hp' : |(p : ℝ)| < 2 ^ 25 := by linarith
  have hq : |p| < 2 ^ 53 := by
    have : |(p : ℝ)| < 2 ^ 53 := hp'.trans (by norm_num)
    exact_mod_cast this
  have hf : IsTrunc ((p : ℝ) * 64) (toFix (p : ℝ)) := by
    have := abs_lt.1 hp'
    rw [toFix_real]
    exact toI32_isTrunc _ (by linarith) (by linarith)
  have ht : |(toFix (p : ℝ) / 64 : ℝ) - p| < 1 / 64 := by
    rcases le_or_gt 0 (p : ℝ) with hv | hv
    · have := hf.1 (by linarith)
      rw [abs_lt]; constructor <;> linarith [this.1, this.2]
    · have := hf.2 (by linarith)
      rw [abs_lt]; constructor <;> linarith [this.1, this.2]
  rw [toFix_is h1 hq]
  have := abs_sub_le (toFix (p : ℝ) / 64 : ℝ) p r
  linarith

end GoSvg.F64
