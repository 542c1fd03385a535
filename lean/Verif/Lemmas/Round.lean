import Verif.Lemmas.Float64

/-! Rounding to binary64 is monotone and keeps bounds that are numbers of binary64. -/

namespace GoSvg.F64

open Spec

theorem roundRat_nearest (z : Bool) {q : ℚ} (h : |q| < 2 ^ (1024 : Int) - 2 ^ (970 : Int)) : Nearest (roundRat z q) q := by
  unfold roundRat
  split
  · rename_i h0
    subst h0
    exact ⟨0, ⟨z, 0, -1074, rfl, ⟨by norm_num, by norm_num, by norm_num⟩, by simp⟩, fun r _ => by simp⟩
  · rename_i h0
    have habs : (if q < 0 then -q else q) = |q| := by
      split
      · rename_i hn; rw [abs_of_neg hn]
      · rename_i hn; rw [abs_of_nonneg (not_lt.1 hn)]
    rw [habs]
    obtain ⟨q', hf, hn⟩ := roundAbs_nearest (abs_pos.2 h0) h (decide (q < 0))
    refine ⟨_, is_of_fin hf, fun r hr => ?_⟩
    have h1 := hn _ hr
    have h2 := abs_abs_sub_abs_le r q
    by_cases hq : q < 0
    · simp only [hq, decide_true, if_true]
      rw [abs_of_neg hq] at h1 h2
      calc |-q' - q| = |q' - -q| := by rw [← abs_neg]; congr 1; ring
        _ ≤ _ := h1
        _ ≤ _ := h2
    · simp only [hq, decide_false, Bool.false_eq_true, if_false]
      rw [abs_of_nonneg (not_lt.1 hq)] at h1 h2
      exact h1.trans h2

theorem nearest_val {x : F64} {q : ℚ} (h : Nearest x q) : Nearest x q ∧ Is x x.val ∧ ∀ r, Rep r → |x.val - q| ≤ |r - q| := by
  obtain ⟨p, hp, hn⟩ := h
  have := is_val hp
  subst this
  exact ⟨⟨_, hp, hn⟩, hp, hn⟩

/-- A lower bound that is a number of binary64 stays a lower bound. -/
theorem le_nearest {x : F64} {p q r : ℚ} (hn : Nearest x q) (hx : Is x p) (hr : Rep r) (h : r ≤ q) : r ≤ p := by
  obtain ⟨p', hp', hn⟩ := hn
  have := is_unique hx hp'
  subst this
  by_contra hc
  rw [not_le] at hc
  have h1 := hn r hr
  rw [abs_of_nonpos (by linarith), abs_of_nonpos (by linarith)] at h1
  linarith

theorem nearest_le {x : F64} {p q r : ℚ} (hn : Nearest x q) (hx : Is x p) (hr : Rep r) (h : q ≤ r) : p ≤ r := by
  obtain ⟨p', hp', hn⟩ := hn
  have := is_unique hx hp'
  subst this
  by_contra hc
  rw [not_le] at hc
  have h1 := hn r hr
  rw [abs_of_nonneg (by linarith), abs_of_nonneg (by linarith)] at h1
  linarith

theorem nearest_lt {x y : F64} {p q r s : ℚ} (hx : Nearest x q) (hy : Nearest y s) (ix : Is x p) (iy : Is y r) (h : q < s) : p ≤ r := by
  obtain ⟨p', hp', hn⟩ := hx
  obtain ⟨r', hr', hm⟩ := hy
  have := is_unique ix hp'
  subst this
  have := is_unique iy hr'
  subst this
  by_contra hc
  rw [not_le] at hc
  have h1 := hn r (is_rep iy)
  have h2 := hm p (is_rep ix)
  rcases abs_cases (p - q) with ⟨a, a'⟩ | ⟨a, a'⟩ <;> rcases abs_cases (r - q) with ⟨b, b'⟩ | ⟨b, b'⟩ <;>
    rcases abs_cases (r - s) with ⟨c, c'⟩ | ⟨c, c'⟩ <;> rcases abs_cases (p - s) with ⟨d, d'⟩ | ⟨d, d'⟩ <;>
    rw [a, b] at h1 <;> rw [c, d] at h2 <;> linarith

variable [Libm]

/-- A product is a nearest number to the exact product. -/
theorem mul_nearest {x y : F64} {p q : ℚ} (hx : Is x p) (hy : Is y q) (h : |p * q| < 2 ^ (1024 : Int) - 2 ^ (970 : Int)) :
    Nearest (x *. y) (p * q) := by
  have h1 := is_val hx
  have h2 := is_val hy
  obtain ⟨s, m, e, rfl, -⟩ := hx
  obtain ⟨t, n, f, rfl, -⟩ := hy
  change Nearest (mul _ _) _
  simp only [mul, h1, h2]
  exact roundRat_nearest _ h

/-- The value of a product depends on the values of the factors only. -/
theorem roundRat_val (z z' : Bool) (q : ℚ) : (roundRat z q).val = (roundRat z' q).val := by
  unfold roundRat
  split
  · simp [val]
  · rfl

theorem mul_val {x y x' y' : F64} {p q p' q' : ℚ} (hx : Is x p) (hy : Is y q) (hx' : Is x' p') (hy' : Is y' q') (h : p * q = p' * q') :
    (x *. y).val = (x' *. y').val := by
  have h1 := is_val hx
  have h2 := is_val hy
  have h3 := is_val hx'
  have h4 := is_val hy'
  obtain ⟨s, m, e, rfl, -⟩ := hx
  obtain ⟨t, n, f, rfl, -⟩ := hy
  obtain ⟨s', m', e', rfl, -⟩ := hx'
  obtain ⟨t', n', f', rfl, -⟩ := hy'
  change (mul _ _).val = (mul _ _).val
  simp only [mul, h1, h2, h3, h4, h]
  exact roundRat_val _ _ _

/-- Products are rounded monotonically. -/
theorem mul_mono {x y x' y' : F64} {p q p' q' : ℚ} (hx : Is x p) (hy : Is y q) (hx' : Is x' p') (hy' : Is y' q') (h : p * q ≤ p' * q')
    (hb : |p * q| < 2 ^ (1024 : Int) - 2 ^ (970 : Int)) (hb' : |p' * q'| < 2 ^ (1024 : Int) - 2 ^ (970 : Int)) :
    ∃ r r', Is (x *. y) r ∧ Is (x' *. y') r' ∧ r ≤ r' := by
  have n1 := mul_nearest hx hy hb
  have n2 := mul_nearest hx' hy' hb'
  obtain ⟨r, i1, -⟩ := id n1
  obtain ⟨r', i2, -⟩ := id n2
  refine ⟨r, r', i1, i2, ?_⟩
  rcases h.eq_or_lt with he | hl
  · rw [← is_val i1, ← is_val i2, mul_val hx hy hx' hy' he]
  · exact nearest_lt n1 n2 i1 i2 hl

theorem big_bound {q : ℚ} (h : |q| ≤ 2 ^ (900 : Int)) : |q| < 2 ^ (1024 : Int) - 2 ^ (970 : Int) := by
  refine h.trans_lt ?_
  have e1 : (2 : ℚ) ^ (1024 : Int) = 2 ^ (900 : Int) * 2 ^ (124 : Int) := by rw [← zpow_add₀ (by norm_num)]; rfl
  have e2 : (2 : ℚ) ^ (970 : Int) = 2 ^ (900 : Int) * 2 ^ (70 : Int) := by rw [← zpow_add₀ (by norm_num)]; rfl
  rw [e1, e2]
  have hp : (0 : ℚ) < 2 ^ (900 : Int) := by positivity
  generalize (2 : ℚ) ^ (900 : Int) = t at *
  have h1 : (2 : ℚ) ^ (124 : Int) = 2 ^ 124 := by norm_cast
  have h2 : (2 : ℚ) ^ (70 : Int) = 2 ^ 70 := by norm_cast
  rw [h1, h2]
  clear e1 e2 h1 h2
  norm_num
  linarith

theorem unit_bound {q : ℚ} (h0 : 0 ≤ q) (h : q ≤ 65536) : |q| < 2 ^ (1024 : Int) - 2 ^ (970 : Int) := by
  apply big_bound
  rw [abs_of_nonneg h0]
  refine h.trans ?_
  have e : (65536 : ℚ) = 2 ^ (16 : Int) := by norm_num
  rw [e]
  exact zpow_le_zpow_right₀ (by norm_num) (by norm_num)

end GoSvg.F64
