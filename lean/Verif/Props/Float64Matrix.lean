import Verif.Lemmas.Near
import Verif.Props.Float64Shapes
import Verif.Model.Render

/-! C23 and C49 in binary64. -/

namespace GoSvg.Spec

/-- Every entry of the matrix of binary64 numbers is a finite number; the linear part is at most `δ`, the translation at most `ε` away from
the entries of the real matrix. -/
structure MatWithin (δ ε : ℝ) (m : Matrix2D F64) (M : Matrix2D ℝ) : Prop where
  a : ∃ q : ℚ, Is m.a q ∧ |(q : ℝ) - M.a| ≤ δ
  b : ∃ q : ℚ, Is m.b q ∧ |(q : ℝ) - M.b| ≤ δ
  c : ∃ q : ℚ, Is m.c q ∧ |(q : ℝ) - M.c| ≤ δ
  d : ∃ q : ℚ, Is m.d q ∧ |(q : ℝ) - M.d| ≤ δ
  e : ∃ q : ℚ, Is m.e q ∧ |(q : ℝ) - M.e| ≤ ε
  f : ∃ q : ℚ, Is m.f q ∧ |(q : ℝ) - M.f| ≤ ε

end GoSvg.Spec

namespace GoSvg.F64

open Spec

variable [Libm]

/-- What is stored for a number of sixty-fourths close to `r` is less than one and the error off. -/
theorem near_toI32 {d : ℝ} {x : F64} {r : ℝ} (h : Near d x r) (hb : |r| + d < 2 ^ 31) : |((GoFloat.toI32 x : ℤ) : ℝ) - r| < 1 + d := by
  obtain ⟨p, h1, h2⟩ := h
  have hp := abs_sub_abs_le_abs_sub (p : ℝ) r
  have hp' : |(p : ℝ)| < 2 ^ 31 := by linarith
  have hf : IsTrunc (p : ℝ) (GoFloat.toI32 (p : ℝ)) := by
    have := abs_lt.1 hp'
    exact toI32_isTrunc _ (by linarith) (by linarith)
  have ht : |((GoFloat.toI32 (p : ℝ) : ℤ) : ℝ) - p| < 1 := by
    rcases le_or_gt 0 (p : ℝ) with hv | hv
    · have := hf.1 (by linarith)
      rw [abs_lt]; constructor <;> linarith [this.1, this.2]
    · have := hf.2 (by linarith)
      rw [abs_lt]; constructor <;> linarith [this.1, this.2]
  rw [toI32_eq h1]
  have := abs_sub_le ((GoFloat.toI32 (p : ℝ) : ℤ) : ℝ) p r
  linarith

/-- One coordinate of a transformed point. -/
theorem near_coord {δ ε : ℝ} {a c e : F64} {A C G : ℝ} (ha : Near δ a A) (hc : Near δ c C) (hg : Near ε e G) {x y : ℤ} {P : ℝ}
    (hx : |(x : ℝ)| ≤ P) (hy : |(y : ℝ)| ≤ P) (hP : P ≤ 2 ^ 31) {E : Nat} (hE : E ≤ 49) (hA : P * (|A| + δ) ≤ 2 ^ E) (hC : P * (|C| + δ) ≤ 2 ^ E)
    (hG : 64 * (|G| + ε) ≤ 2 ^ E) (hb : |(x : ℝ) * A + y * C + G * 64| + ((2 * P * δ + 64 * ε) + 2 ^ E / 2 ^ 50) < 2 ^ 31) :
    |((GoFloat.toI32 ((GoFloat.ofInt x *. a +. GoFloat.ofInt y *. c) +. e *. num 64) : ℤ) : ℝ) - ((x : ℝ) * A + y * C + G * 64)| <
      1 + ((2 * P * δ + 64 * ε) + 2 ^ E / 2 ^ 50) := by
  have hδ : 0 ≤ δ := by obtain ⟨q, -, h⟩ := ha; exact (abs_nonneg _).trans h
  have small : ∀ {z : ℤ}, |(z : ℝ)| ≤ P → |z| < 2 ^ 53 := by
    intro z hz
    have : |(z : ℝ)| < 2 ^ 53 := (hz.trans hP).trans_lt (by norm_num)
    exact_mod_cast this
  have nx : Near 0 (GoFloat.ofInt x : F64) (x : ℝ) := by simpa using near_is (is_ofInt (small hx))
  have ny : Near 0 (GoFloat.ofInt y : F64) (y : ℝ) := by simpa using near_is (is_ofInt (small hy))
  have n64 : Near 0 (num 64 : F64) (64 : ℝ) := by
    have := near_is (is_num (q := 64) (by simpa using rep_nat (n := 64) (by norm_num)))
    simpa using this
  have hP0 : 0 ≤ P := (abs_nonneg _).trans hx
  have hp : (0 : ℝ) < 2 ^ E := by positivity
  have e1 : (2 : ℝ) ^ (E + 1) = 2 * 2 ^ E := by rw [pow_add]; ring
  have e2 : (2 : ℝ) ^ (E + 2) = 4 * 2 ^ E := by rw [pow_add]; ring
  have e3 : (2 : ℝ) ^ (E + 3) = 8 * 2 ^ E := by rw [pow_add]; ring
  have prod : ∀ {z : ℤ} {B : ℝ}, |(z : ℝ)| ≤ P → P * (|B| + δ) ≤ 2 ^ E → |(z : ℝ) * B| + |(z : ℝ)| * δ ≤ 2 ^ E := by
    intro z B hz hB
    rw [abs_mul]
    have : |(z : ℝ)| * (|B| + δ) ≤ P * (|B| + δ) := mul_le_mul_of_nonneg_right hz (by positivity)
    linarith
  have dx : |(x : ℝ)| * δ ≤ P * δ := mul_le_mul_of_nonneg_right hx hδ
  have dy : |(y : ℝ)| * δ ≤ P * δ := mul_le_mul_of_nonneg_right hy hδ
  have bx := prod hx hA
  have by' := prod hy hC
  have m1 := near_mul nx ha (E := E) (by omega) (by linarith)
  have m2 := near_mul ny hc (E := E) (by omega) (by linarith)
  have hG' : |G * 64| + 64 * ε ≤ 2 ^ E := by rw [abs_mul, abs_of_pos (by norm_num : (0 : ℝ) < 64)]; linarith
  have m3 := near_mul hg n64 (E := E) (by omega) (by rw [abs_of_pos (by norm_num : (0 : ℝ) < 64)]; linarith)
  rw [abs_of_pos (by norm_num : (0 : ℝ) < 64)] at m3
  have k1 := abs_add_le ((x : ℝ) * A) (y * C)
  have u54 : (2 : ℝ) ^ E / 2 ^ 54 ≤ 2 ^ E / 2 := div_le_div_of_nonneg_left hp.le (by norm_num) (by norm_num)
  have s1 := near_add m1 m2 (E := E + 2) (by omega) (by rw [e2]; linarith)
  have k2 := abs_add_le ((x : ℝ) * A + y * C) (G * 64)
  rw [e2] at s1
  have u4 : (4 : ℝ) * 2 ^ E / 2 ^ 54 ≤ 2 ^ E / 2 := by rw [mul_comm, mul_div_assoc]; nlinarith
  have s2 := near_add s1 m3 (E := E + 3) (by omega) (by rw [e3]; linarith)
  rw [e3] at s2
  have tot : 0 * |A| + |(x : ℝ)| * δ + 0 * δ + 2 ^ E / 2 ^ 54 + (0 * |C| + |(y : ℝ)| * δ + 0 * δ + 2 ^ E / 2 ^ 54) + 4 * 2 ^ E / 2 ^ 54 +
      (ε * 64 + |G| * 0 + ε * 0 + 2 ^ E / 2 ^ 54) + 8 * 2 ^ E / 2 ^ 54 ≤ (2 * P * δ + 64 * ε) + 2 ^ E / 2 ^ 50 := by
    have : (2 : ℝ) ^ E / 2 ^ 50 = 16 * (2 ^ E / 2 ^ 54) := by ring
    rw [this]
    have p54 : (0 : ℝ) ≤ 2 ^ E / 2 ^ 54 := by positivity
    have q4 : (4 : ℝ) * 2 ^ E / 2 ^ 54 = 4 * (2 ^ E / 2 ^ 54) := by ring
    have q8 : (8 : ℝ) * 2 ^ E / 2 ^ 54 = 8 * (2 ^ E / 2 ^ 54) := by ring
    rw [q4, q8]
    nlinarith
  exact near_toI32 (s2.mono tot) hb

end GoSvg.F64

namespace GoSvg

open Spec F64

variable [Libm]

/-- C23 in binary64: with a matrix whose linear part is at most `δ` and whose translation is at most `ε` off, for a point of at most `P` sixty-fourths, and with no product
beyond `2^E`, both coordinates drawn are less than a sixty-fourth and the accumulated error from the exact image. -/
theorem C23_float64 (m : Matrix2D F64) (M : Matrix2D ℝ) (δ ε : ℝ) (hm : MatWithin δ ε m M) (p : Pt) (P : ℝ) (hx : |(p.x : ℝ)| ≤ P)
    (hy : |(p.y : ℝ)| ≤ P) (hP : P ≤ 2 ^ 31) (E : Nat) (hE : E ≤ 49)
    (hl : ∀ r ∈ [M.a, M.b, M.c, M.d], P * (|r| + δ) ≤ 2 ^ E) (ht : ∀ r ∈ [M.e, M.f], 64 * (|r| + ε) ≤ 2 ^ E)
    (hX : |64 * (affine M (fixed p)).1| + ((2 * P * δ + 64 * ε) + 2 ^ E / 2 ^ 50) < 2 ^ 31)
    (hY : |64 * (affine M (fixed p)).2| + ((2 * P * δ + 64 * ε) + 2 ^ E / 2 ^ 50) < 2 ^ 31) :
    |((m.tFixed p).x : ℝ) - 64 * (affine M (fixed p)).1| < 1 + ((2 * P * δ + 64 * ε) + 2 ^ E / 2 ^ 50) ∧
    |((m.tFixed p).y : ℝ) - 64 * (affine M (fixed p)).2| < 1 + ((2 * P * δ + 64 * ε) + 2 ^ E / 2 ^ 50) := by
  have ex : 64 * (affine M (fixed p)).1 = (p.x : ℝ) * M.a + p.y * M.c + M.e * 64 := by simp [affine, fixed]; ring
  have ey : 64 * (affine M (fixed p)).2 = (p.x : ℝ) * M.b + p.y * M.d + M.f * 64 := by simp [affine, fixed]; ring
  rw [ex] at hX ⊢
  rw [ey] at hY ⊢
  obtain ⟨ha, hb, hc, hd, he, hf⟩ := hm
  simp only [List.mem_cons, List.not_mem_nil, or_false, forall_eq_or_imp, forall_eq] at hl ht
  exact ⟨near_coord ha hc he hx hy hP hE hl.1 hl.2.2.1 ht.1 hX, near_coord hb hd hf hx hy hP hE hl.2.1 hl.2.2.2 ht.2 hY⟩

end GoSvg

namespace GoSvg

open Spec F64

variable [Libm]

theorem near_target1 {x v w u : F64} {x' v' w' u' : ℚ} (hx : Is x x') (hv : Is v v') (hw : Is w w') (hu : Is u u') (h0 : u' ≠ 0) {k j : Nat}
    (hkj : k + j ≤ 50) (h1 : |(x' : ℝ) - v'| ≤ 2 ^ k) (h2 : |(w' : ℝ) / u'| ≤ 2 ^ j) :
    Near (2 ^ j / 2 ^ 54) (num 1 *. (w /. u)) ((w' : ℝ) / u') ∧
    Near (2 ^ (k + j) / 2 ^ 51) ((num 0 +. (x -. v)) *. (w /. u)) (((x' : ℝ) - v') * (w' / u')) ∧
    Near (2 ^ j / 2 ^ 54) (num 0 *. (w /. u)) 0 := by
  have hk : (1 : ℝ) ≤ 2 ^ k := one_le_pow₀ (by norm_num)
  have hj : (1 : ℝ) ≤ 2 ^ j := one_le_pow₀ (by norm_num)
  have ekj : (2 : ℝ) ^ (k + j) = 2 ^ k * 2 ^ j := pow_add _ _ _
  have hu0 : (0 : ℝ) < |(u' : ℝ)| := abs_pos.2 (by exact_mod_cast h0)
  have hs : Near (2 ^ j / 2 ^ 54) (w /. u) ((w' : ℝ) / u') := by
    have := near_div (near_is hw) (near_is hu) (E := j) (by omega) hu0 (by simpa using h2)
    simpa using this
  have hd : Near (2 ^ k / 2 ^ 54) (x -. v) ((x' : ℝ) - v') := by
    have := near_sub (near_is hx) (near_is hv) (E := k) (by omega) (by simpa using h1)
    simpa using this
  have hd0 : Near (2 ^ k / 2 ^ 54) (num 0 +. (x -. v)) ((x' : ℝ) - v') := by
    obtain ⟨q, i1, i2⟩ := hd
    exact ⟨q, is_add' (is_num rep_zero) i1 (zero_add _) (is_rep i1), i2⟩
  have u54 : (2 : ℝ) ^ (k + j) / 2 ^ 51 = 8 * (2 ^ (k + j) / 2 ^ 54) := by ring
  have p54 : (0 : ℝ) < 2 ^ (k + j) / 2 ^ 54 := by positivity
  have pk : (0 : ℝ) < 2 ^ k / 2 ^ 54 := by positivity
  have pj : (0 : ℝ) < 2 ^ j / 2 ^ 54 := by positivity
  refine ⟨?_, ?_, ?_⟩
  · obtain ⟨q, i1, i2⟩ := hs
    exact ⟨q, is_mul' (is_num rep_one) i1 (one_mul _) (is_rep i1), i2⟩
  · have t1 : 2 ^ k / 2 ^ 54 * |(w' : ℝ) / u'| ≤ 2 ^ (k + j) / 2 ^ 54 := by
      rw [ekj, mul_div_right_comm]
      exact mul_le_mul_of_nonneg_left h2 pk.le
    have t2 : |(x' : ℝ) - v'| * (2 ^ j / 2 ^ 54) ≤ 2 ^ (k + j) / 2 ^ 54 := by
      rw [ekj, mul_div_assoc]
      exact mul_le_mul_of_nonneg_right h1 pj.le
    have t3 : (2 : ℝ) ^ k / 2 ^ 54 * (2 ^ j / 2 ^ 54) ≤ 2 ^ (k + j) / 2 ^ 54 / 2 ^ 54 := le_of_eq (by rw [ekj]; ring)
    have t4 : (2 : ℝ) ^ (k + j) / 2 ^ 54 / 2 ^ 54 ≤ 2 ^ (k + j) / 2 ^ 54 / 2 := div_le_div_of_nonneg_left p54.le (by norm_num) (by norm_num)
    have t5 : |((x' : ℝ) - v') * (w' / u')| ≤ 2 ^ (k + j) := by
      rw [abs_mul, ekj]
      exact mul_le_mul h1 h2 (abs_nonneg _) (by positivity)
    have t6 : (2 : ℝ) ^ (k + j) / 2 ^ 54 ≤ 2 ^ (k + j) / 4 := div_le_div_of_nonneg_left (by positivity) (by norm_num) (by norm_num)
    have e1 : (2 : ℝ) ^ (k + j + 1) = 2 * 2 ^ (k + j) := by rw [pow_succ]; ring
    have := near_mul hd0 hs (E := k + j + 1) (by omega) (by rw [e1]; linarith)
    refine this.mono ?_
    rw [u54, e1, mul_div_assoc]
    linarith
  · obtain ⟨q, i1, i2⟩ := hs
    exact ⟨0, is_mul' (is_num rep_zero) i1 (zero_mul _) rep_zero, by simpa using pj.le⟩

/-- The view box of a drawing, as exact numbers. -/
structure BoxIs (vb : Bounds F64) (x y w h : ℚ) : Prop where
  x : Is vb.x x
  y : Is vb.y y
  w : Is vb.w w
  h : Is vb.h h

/-- C49 in binary64, the mapping: the entries of the matrix of `Target` are those of exact arithmetic up to rounding. Where the mapping
itself goes is `C49_target_partial`. -/
theorem C49_float64_partial (vb : Bounds F64) {vx vy vw vh : ℚ} (hv : BoxIs vb vx vy vw vh) (hw0 : vw ≠ 0) (hh0 : vh ≠ 0)
    (x y w h : F64) {x' y' w' h' : ℚ} (hx : Is x x') (hy : Is y y') (hw : Is w w') (hh : Is h h') (k j : Nat) (hkj : k + j ≤ 50)
    (h1 : |(x' : ℝ) - vx| ≤ 2 ^ k) (h2 : |(y' : ℝ) - vy| ≤ 2 ^ k) (h3 : |(w' : ℝ) / vw| ≤ 2 ^ j) (h4 : |(h' : ℝ) / vh| ≤ 2 ^ j) :
    MatWithin (2 ^ j / 2 ^ 54) (2 ^ (k + j) / 2 ^ 51) (options vb [.target x y w h]).target
      (options ⟨(vx : ℝ), vy, vw, vh⟩ [.target (x' : ℝ) y' w' h']).target := by
  have e : (options ⟨(vx : ℝ), vy, vw, vh⟩ [.target (x' : ℝ) y' w' h']).target =
      ⟨(w' : ℝ) / vw, 0, 0, (h' : ℝ) / vh, (x' - vx) * (w' / vw), (y' - vy) * (h' / vh)⟩ := by
    simp only [options, List.foldl_cons, List.foldl_nil, RenderOption.apply, Matrix2D.identity, Matrix2D.translate,
      Matrix2D.scale, real_add, real_mul, real_sub, real_div, real_num]
    norm_num
  rw [e]
  obtain ⟨a, b, c⟩ := near_target1 hx hv.x hw hv.w hw0 hkj h1 h3
  obtain ⟨a', b', c'⟩ := near_target1 hy hv.y hh hv.h hh0 hkj h2 h4
  exact ⟨a, c', c, a', b, b'⟩

theorem mult_id_left {s t : Matrix2D F64} {δ ε : ℝ} {M : Matrix2D ℝ} (hs : IsId s) (ht : MatWithin δ ε t M) : MatWithin δ ε (s.mult t) M := by
  obtain ⟨⟨a, ia, ha⟩, ⟨b, ib, hb⟩, ⟨c, ic, hc⟩, ⟨d, id', hd⟩, ⟨e, ie, he⟩, ⟨f, if', hf⟩⟩ := ht
  refine ⟨⟨a, ?_, ha⟩, ⟨b, ?_, hb⟩, ⟨c, ?_, hc⟩, ⟨d, ?_, hd⟩, ⟨e, ?_, he⟩, ⟨f, ?_, hf⟩⟩
  · exact is_add' (is_mul' hs.a ia (one_mul _) (is_rep ia)) (is_mul' hs.c ib (zero_mul _) rep_zero) (add_zero _) (is_rep ia)
  · exact is_add' (is_mul' hs.b ia (zero_mul _) rep_zero) (is_mul' hs.d ib (one_mul _) (is_rep ib)) (zero_add _) (is_rep ib)
  · exact is_add' (is_mul' hs.a ic (one_mul _) (is_rep ic)) (is_mul' hs.c id' (zero_mul _) rep_zero) (add_zero _) (is_rep ic)
  · exact is_add' (is_mul' hs.b ic (zero_mul _) rep_zero) (is_mul' hs.d id' (one_mul _) (is_rep id')) (zero_add _) (is_rep id')
  · exact is_add' (is_add' (is_mul' hs.a ie (one_mul _) (is_rep ie)) (is_mul' hs.c if' (zero_mul _) rep_zero) (add_zero _) (is_rep ie))
      (is_mul' hs.e ia (zero_mul _) rep_zero) (add_zero _) (is_rep ie)
  · exact is_add' (is_add' (is_mul' hs.b ie (zero_mul _) rep_zero) (is_mul' hs.d if' (one_mul _) (is_rep if')) (zero_add _) (is_rep if'))
      (is_mul' hs.f id' (zero_mul _) rep_zero) (add_zero _) (is_rep if')

/-- C20 in binary64: the drawing matrix of a path without transforms is the matrix of the target, with no rounding error. -/
theorem C20_float64_neutral (t : Matrix2D F64) (M : Matrix2D ℝ) (δ ε : ℝ) (h : MatWithin δ ε t M) :
    MatWithin δ ε ((Matrix2D.identity : Matrix2D F64).mult t) M := mult_id_left isId_identity h

end GoSvg

namespace GoSvg

open Spec F64

section Examples

attribute [local instance] dummyLibm

theorem is_nat (n : Nat) (h : n < 2 ^ 53) : Is (num (n : ℚ) : F64) (n : ℚ) := is_num (rep_nat h)

/-- The view box of a common icon. -/
def iconBox : Bounds F64 := ⟨num 0, num 0, num 24, num 24⟩

theorem iconBox_is : BoxIs iconBox 0 0 24 24 := by
  have h : Is (num 24 : F64) 24 := by simpa using is_nat 24 (by norm_num)
  exact ⟨is_num rep_zero, is_num rep_zero, h, h⟩

theorem icon_target : MatWithin (2 ^ 3 / 2 ^ 54) (2 ^ (0 + 3) / 2 ^ 51) (options iconBox [.target (num 0) (num 0) (num 100) (num 100)]).target
    (options ⟨((0 : ℚ) : ℝ), ((0 : ℚ) : ℝ), ((24 : ℚ) : ℝ), ((24 : ℚ) : ℝ)⟩ [.target ((0 : ℚ) : ℝ) ((0 : ℚ) : ℝ) ((100 : ℚ) : ℝ) ((100 : ℚ) : ℝ)]).target := by
  have h : Is (num 100 : F64) 100 := by simpa using is_nat 100 (by norm_num)
  exact C49_float64_partial iconBox iconBox_is (by norm_num) (by norm_num) _ _ _ _ (is_num rep_zero) (is_num rep_zero) h h 0 3 (by norm_num)
    (by norm_num) (by norm_num) (by norm_num [abs_le]) (by norm_num [abs_le])

/-- The hypotheses of C49, C20 and C23 in binary64 are met by an icon of 24 units drawn at 100 pixels: the factor 25/6 is not a number
of binary64. -/
example : ∃ m : Matrix2D F64, m = (Matrix2D.identity : Matrix2D F64).mult (options iconBox [.target (num 0) (num 0) (num 100) (num 100)]).target ∧
    |((m.tFixed ⟨65, 130⟩).x : ℝ) - 65 * (25 / 6)| < 1 + 1 / 2 ^ 30 := by
  refine ⟨_, rfl, ?_⟩
  have e : (options ⟨((0 : ℚ) : ℝ), ((0 : ℚ) : ℝ), ((24 : ℚ) : ℝ), ((24 : ℚ) : ℝ)⟩ [.target ((0 : ℚ) : ℝ) ((0 : ℚ) : ℝ) ((100 : ℚ) : ℝ) ((100 : ℚ) : ℝ)]).target =
      ⟨25 / 6, 0, 0, 25 / 6, 0, 0⟩ := by
    simp only [options, List.foldl_cons, List.foldl_nil, RenderOption.apply, Matrix2D.identity, Matrix2D.translate,
      Matrix2D.scale, real_add, real_mul, real_sub, real_div, real_num]
    norm_num
  have h := C20_float64_neutral _ _ _ _ icon_target
  rw [e] at h
  have := (C23_float64 _ _ _ _ h ⟨65, 130⟩ 130 (by norm_num) (by norm_num) (by norm_num) 10 (by norm_num)
    (by norm_num [abs_of_pos]) (by norm_num) (by norm_num [affine, fixed, abs_of_pos]) (by norm_num [affine, fixed, abs_of_pos])).1
  norm_num [affine, fixed] at this ⊢
  refine lt_trans this (by norm_num)

end Examples

end GoSvg
