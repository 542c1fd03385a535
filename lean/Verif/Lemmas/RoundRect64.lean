import Verif.Lemmas.Corners64
import Verif.Props.Transforms64

/-! Rectangles with round corners in binary64. -/

namespace GoSvg.F64

open Spec

variable [Libm]

/-! ### Signs and comparisons -/

omit [Libm] in
theorem roundAbs_neg (s : Bool) (q : ℚ) : neg (roundAbs s q) = roundAbs (!s) q := by
  unfold roundAbs
  dsimp only
  split_ifs <;> rfl

omit [Libm] in
/-- Rounding a number and its negation. -/
theorem is_roundRat_neg {s t : Bool} {p q : ℚ} (h : Is (roundRat s q) p) : Is (roundRat t (-q)) (-p) := by
  by_cases hq : q = 0
  · subst hq
    have hp : p = 0 := by
      obtain ⟨s', m, e, h1, -, rfl⟩ := h
      unfold roundRat at h1
      rw [if_pos rfl] at h1
      injection h1 with _ h2 _
      rw [← h2]
      simp
    subst hp
    unfold roundRat
    rw [if_pos (by norm_num)]
    exact ⟨_, _, _, rfl, ⟨by norm_num, by norm_num, by norm_num⟩, by simp⟩
  · have hq' : -q ≠ 0 := neg_ne_zero.2 hq
    unfold roundRat at h ⊢
    rw [if_neg hq] at h
    rw [if_neg hq']
    rcases lt_or_gt_of_ne hq with h0 | h0
    · have h1 : ¬ -q < 0 := by linarith
      simp only [h0, h1, decide_true, decide_false, if_true, if_false] at h ⊢
      have := is_neg h
      rwa [roundAbs_neg] at this
    · have h1 : -q < 0 := by linarith
      have h2 : ¬ q < 0 := by linarith
      simp only [h1, h2, decide_true, decide_false, if_true, if_false, neg_neg] at h ⊢
      have := is_neg h
      rwa [roundAbs_neg] at this

omit [Libm] in
/-- The sum of the negations is the negation of the sum. -/
theorem is_neg_sub {x y : F64} {p : ℚ} (h : Is (add x y) p) (hx : ∃ q, Is x q) (hy : ∃ q, Is y q) : Is (sub (neg x) y) (-p) := by
  obtain ⟨_, s, m, e, rfl, -⟩ := hx
  obtain ⟨_, t, n, f, rfl, -⟩ := hy
  have e1 : sub (neg (.fin s m e)) (.fin t n f) = roundRat ((F64.fin (!s) m e).isZero && (F64.fin (!t) n f).isZero && (F64.fin (!s) m e).sign &&
      (F64.fin (!t) n f).sign) (-((F64.fin s m e).val + (F64.fin t n f).val)) := by
    show roundRat _ _ = _
    congr 1
    cases s <;> cases t <;> simp [val] <;> ring
  rw [e1]
  exact is_roundRat_neg (s := (F64.fin s m e).isZero && (F64.fin t n f).isZero && (F64.fin s m e).sign && (F64.fin t n f).sign) h

omit [Libm] in
theorem not_lt_of {x y : F64} {p q : ℚ} (hx : Is x p) (hy : Is y q) (h : q ≤ p) : lt x y = false := by
  have h1 := is_val hx
  have h2 := is_val hy
  obtain ⟨s, m, e, rfl, -⟩ := hx
  obtain ⟨t, n, f, rfl, -⟩ := hy
  show decide _ = false
  rw [decide_eq_false_iff_not, h1, h2]
  exact not_lt.2 h

omit [Libm] in
theorem not_le_of {x y : F64} {p q : ℚ} (hx : Is x p) (hy : Is y q) (h : q < p) : le x y = false := by
  have h1 := is_val hx
  have h2 := is_val hy
  have h3 := not_lt_of hx hy h.le
  obtain ⟨s, m, e, rfl, -⟩ := hx
  obtain ⟨t, n, f, rfl, -⟩ := hy
  unfold le
  rw [h3, Bool.false_or]
  show decide _ = false
  rw [decide_eq_false_iff_not, h1, h2]
  exact h.ne'

/-! ### The matrix -/

theorem isId_round (hL : ExactAtZero) {cx cy tx ty z k : F64} {p q : ℚ} (hx : Is cx p) (hy : Is cy q) (hx' : Is tx (-p)) (hy' : Is ty (-q)) (hz : Is z 0)
    (hk : Is k 1) : IsId ((((Matrix2D.identity.translate cx cy).rotate z).scale (num 1) k).translate tx ty) := by
  have o : Is (num 1 : F64) 1 := is_num rep_one
  have z0 : Is (num 0 : F64) 0 := is_num rep_zero
  have c := hL.cos z hz
  have s := hL.sin z hz
  have ns : Is (GoFloat.neg (Libm.sin z)) 0 := by
    have := is_neg s
    rw [neg_zero] at this
    exact this
  have ex := is_add' z0 hx (zero_add _) (is_rep hx)
  have ey := is_add' z0 hy (zero_add _) (is_rep hy)
  have ra := is_add' (is_mul' o c (one_mul _) rep_one) (is_mul' z0 s (zero_mul _) rep_zero) (add_zero _) rep_one
  have rb := is_add' (is_mul' z0 c (zero_mul _) rep_zero) (is_mul' o s (one_mul _) rep_zero) (add_zero _) rep_zero
  have rc := is_add' (is_mul' o ns (one_mul _) rep_zero) (is_mul' z0 c (zero_mul _) rep_zero) (add_zero _) rep_zero
  have rd := is_add' (is_mul' z0 ns (zero_mul _) rep_zero) (is_mul' o c (one_mul _) rep_one) (zero_add _) rep_one
  have re := is_add' (is_add' (is_mul' o z0 (one_mul _) rep_zero) (is_mul' z0 z0 (zero_mul _) rep_zero) (add_zero _) rep_zero)
      (is_mul' ex c (mul_one _) (is_rep hx)) (zero_add _) (is_rep hx)
  have rf := is_add' (is_add' (is_mul' z0 z0 (zero_mul _) rep_zero) (is_mul' o z0 (one_mul _) rep_zero) (add_zero _) rep_zero)
      (is_mul' ey c (mul_one _) (is_rep hy)) (zero_add _) (is_rep hy)
  constructor
  · exact is_mul' ra o (mul_one _) rep_one
  · exact is_mul' rb hk (mul_one _) rep_zero
  · exact is_mul' rc o (mul_one _) rep_zero
  · exact is_mul' rd hk (mul_one _) rep_one
  · exact is_add' (is_mul' re o (mul_one _) (is_rep hx)) hx' (add_neg_cancel _) rep_zero
  · exact is_add' (is_mul' rf hk (mul_one _) (is_rep hy)) hy' (add_neg_cancel _) rep_zero

/-! ### Points and circles -/

/-- The circle of the grid for a computed centre and radius. -/
theorem near_circle {m : Matrix2D F64} (hm : IsId m) {u v ρ : F64} {x y r : ℝ} (hu : Near (1 / 2 ^ 18) u x) (hv : Near (1 / 2 ^ 18) v y)
    (hr : Near (1 / 2 ^ 23) ρ r) (hx : |x| ≤ 2 ^ 21) (hy : |y| ≤ 2 ^ 21) (r0 : 1 / 64 + 1 / 2 ^ 20 ≤ r) (r1 : r + 1 / 2 ^ 21 ≤ 2 ^ 20) :
    NearCircle m (toFixedP u v) (toFix ρ) x y r ∧ 0 < toFix ρ := by
  have k : ∀ {u : F64} {x : ℝ}, Near (1 / 2 ^ 18) u x → |x| ≤ 2 ^ 21 → |(toFix u : ℝ) - 64 * x| ≤ 5 / 4 ∧ |toFix u| ≤ 2 ^ 29 := by
    intro u x hu hx
    have h1 := near_fix hu (by norm_num at hx ⊢; linarith)
    obtain ⟨h2, h3⟩ := abs_lt.1 h1
    obtain ⟨h4, h5⟩ := abs_le.1 hx
    have h6 : |(toFix u : ℝ) - 64 * x| ≤ 5 / 4 := by
      rw [abs_le]
      constructor <;> norm_num at h2 h3 ⊢ <;> linarith
    refine ⟨h6, ?_⟩
    have : |(toFix u : ℝ)| ≤ 2 ^ 29 := by
      rw [abs_le]
      constructor <;> norm_num at h2 h3 h4 h5 ⊢ <;> linarith
    exact_mod_cast this
  obtain ⟨q, iq, hq⟩ := hr
  obtain ⟨q1, q2⟩ := abs_le.1 hq
  have qp : (1 / 64 : ℝ) ≤ q := by norm_num at q1 r0 ⊢; linarith
  have qu : (q : ℝ) ≤ 2 ^ 20 := by norm_num at q2 r1 ⊢; linarith
  have hfix : toFix ρ = toFix (q : ℝ) := toFix_is iq (by
    have : |(q : ℝ)| < 2 ^ 53 := by rw [abs_of_nonneg (by linarith)]; exact qu.trans_lt (by norm_num)
    exact_mod_cast this)
  have tt : IsTrunc ((q : ℝ) * 64) (toFix (q : ℝ)) := by
    rw [toFix_real]
    exact toI32_isTrunc _ (by linarith) (by norm_num at qu ⊢; linarith)
  obtain ⟨t1, t2⟩ := tt.1 (by linarith)
  have pos : 0 < toFix (q : ℝ) := by
    have : (0 : ℝ) < toFix (q : ℝ) := by linarith
    exact_mod_cast this
  rw [hfix]
  refine ⟨⟨fun p h1 h2 => ?_, (k hu hx).2, (k hv hy).2, (k hu hx).1, (k hv hy).1, pos.le, ?_, ?_⟩, pos⟩
  · have := abs_le.1 h1
    have := abs_le.1 h2
    exact tFixed_id hm p (by constructor <;> omega) (by constructor <;> omega)
  · have : (toFix (q : ℝ) : ℝ) ≤ 2 ^ 26 := by norm_num at qu ⊢; linarith
    exact_mod_cast this
  · rw [abs_le]
    constructor <;> norm_num at q1 q2 ⊢ <;> linarith

/-- A corner point of the outline. -/
theorem point_near {m : Matrix2D F64} (hm : IsId m) {u v : F64} {x y : ℝ} (hu : Near (1 / 2 ^ 18) u x) (hv : Near (1 / 2 ^ 18) v y)
    (hx : |x| ≤ 2 ^ 21) (hy : |y| ≤ 2 ^ 21) : PtWithin (5 / 64) (m.tFixed (toFixedP u v)) (x, y) := by
  have k : ∀ {u : F64} {x : ℝ}, Near (1 / 2 ^ 18) u x → |x| ≤ 2 ^ 21 → |(toFix u / 64 : ℝ) - x| < 5 / 64 ∧ -2 ^ 31 ≤ toFix u ∧ toFix u < 2 ^ 31 := by
    intro u x hu hx
    have h1 := near_fix hu (by norm_num at hx ⊢; linarith)
    obtain ⟨h2, h3⟩ := abs_lt.1 h1
    obtain ⟨h4, h5⟩ := abs_le.1 hx
    refine ⟨h1.trans (by norm_num), ?_, ?_⟩
    · have : ((-2 ^ 31 : ℤ) : ℝ) ≤ toFix u := by push_cast; norm_num at h2 h4 ⊢; linarith
      exact_mod_cast this
    · have : (toFix u : ℝ) < ((2 ^ 31 : ℤ) : ℝ) := by push_cast; norm_num at h3 h5 ⊢; linarith
      exact_mod_cast this
  obtain ⟨a1, a2⟩ := k hu hx
  obtain ⟨b1, b2⟩ := k hv hy
  rw [tFixed_id hm _ a2 b2]
  exact ⟨a1, b1⟩

/-! ### The outline -/

/-- The outline of a rectangle with round corners, see `rounded_rect`. -/
noncomputable def roundOps (x y w h r : ℝ) : List (GOp ℝ) :=
  [.moveTo (x + r, y), .lineTo (x + w - r, y)] ++ cornerOps (x + w - r) (y + r) r (-(Real.pi / 2)) ++
    [.lineTo (x + w, y + h - r)] ++ cornerOps (x + w - r) (y + h - r) r 0 ++ [.lineTo (x + r, y + h)] ++
    cornerOps (x + r) (y + h - r) r (Real.pi / 2) ++ [.lineTo (x, y + r)] ++ cornerOps (x + r) (y + r) r Real.pi ++ [.close]

theorem round_rect_near (hL : Accurate) (hA : AtanAxes) {fuel : Nat} (hf : 1 ≤ fuel) {u v U V ρ : F64} {x y w h r : ℝ}
    (h1 : Near (1 / 2 ^ 23) u x) (h2 : Near (1 / 2 ^ 23) v y) (h3 : Near (1 / 2 ^ 23) U (x + w)) (h4 : Near (1 / 2 ^ 23) V (y + h))
    (h5 : Near (1 / 2 ^ 23) ρ r) (bx : |x| ≤ 2 ^ 20) (by' : |y| ≤ 2 ^ 20) (bw : |x + w| ≤ 2 ^ 20) (bh : |y + h| ≤ 2 ^ 20)
    (r0 : 1 / 64 + 1 / 2 ^ 20 ≤ r) (rw' : 2 * r + 1 / 2 ^ 20 ≤ w) (rh : 2 * r + 1 / 2 ^ 20 ≤ h) :
    ∃ ops, addRoundRect fuel u v U V ρ ρ (num 0) = some ops ∧ List.Forall₂ (OpWithin (5 / 64)) ops (roundOps x y w h r) := by
  obtain ⟨x1, x2⟩ := abs_le.1 bx
  obtain ⟨y1, y2⟩ := abs_le.1 by'
  obtain ⟨w1, w2⟩ := abs_le.1 bw
  obtain ⟨k1, k2⟩ := abs_le.1 bh
  have rp : 0 < r := by norm_num at r0 ⊢; linarith
  have r1 : r + 1 / 2 ^ 21 ≤ 2 ^ 20 := by norm_num at rw' w2 x1 ⊢; linarith
  have b2 : Is (num 2 : F64) 2 := is_num (by simpa using rep_nat (n := 2) (by norm_num))
  have o : Is (num 1 : F64) 1 := is_num rep_one
  have z0 : Is (num 0 : F64) 0 := is_num rep_zero
  have B : ∀ {t : ℝ}, -2 ^ 20 ≤ t → t ≤ 2 ^ 20 → |t| ≤ 2 ^ 21 := by
    intro t t1 t2
    rw [abs_le]
    constructor <;> norm_num at * <;> linarith
  have S : ∀ {a b : F64} {s t d e : ℝ}, Near d a s → Near e b t → d + e ≤ 1 / 2 ^ 17 → |s + t| ≤ 2 ^ 22 → Near (d + e + 1 / 2 ^ 31) (a +. b) (s + t) := by
    intro a b s t d e ha hb hde hst
    exact (near_add ha hb (E := 23) (by norm_num) (by norm_num at hst hde ⊢; linarith)).mono (by norm_num)
  have D : ∀ {a b : F64} {s t d e : ℝ}, Near d a s → Near e b t → d + e ≤ 1 / 2 ^ 17 → |s - t| ≤ 2 ^ 22 → Near (d + e + 1 / 2 ^ 31) (a -. b) (s - t) := by
    intro a b s t d e ha hb hde hst
    exact (near_sub ha hb (E := 23) (by norm_num) (by norm_num at hst hde ⊢; linarith)).mono (by norm_num)
  -- the sides
  have side : ∀ {a b : F64} {s l : ℝ}, Near (1 / 2 ^ 23) a s → Near (1 / 2 ^ 23) b (s + l) → |s| ≤ 2 ^ 20 → |s + l| ≤ 2 ^ 20 →
      Near (1 / 2 ^ 21) (b -. a) l ∧ Near (1 / 2 ^ 21) ((b -. a) /. num 2) (l / 2) ∧ |l| ≤ 2 ^ 21 := by
    intro a b s l ha hb hs hl
    have e1 : s + l - s = l := by ring
    have hl' : |l| ≤ 2 ^ 21 := by
      have := abs_sub (s + l) s
      rw [e1] at this
      norm_num at hs hl ⊢
      linarith
    have n1 := D hb ha (by norm_num) (by rw [e1]; exact hl'.trans (by norm_num))
    rw [e1] at n1
    have n1' := n1.mono (d' := 1 / 2 ^ 21) (by norm_num)
    have n2 := near_div n1' (near_is b2) (E := 21) (by norm_num) (by norm_num) (by
      norm_num
      rw [abs_div, abs_two]
      norm_num at hl'
      linarith)
    norm_num at n2
    exact ⟨n1', n2.mono (by norm_num), hl'⟩
  obtain ⟨wn, wn2, wl⟩ := side h1 h3 bx bw
  obtain ⟨hn, hn2, hl⟩ := side h2 h4 by' bh
  have half : ∀ {l : ℝ}, |l| ≤ 2 ^ 21 → |l / 2| ≤ 2 ^ 20 := by
    intro l hl
    rw [abs_div, abs_two]
    norm_num at hl ⊢
    linarith
  have T : ∀ {s l : ℝ}, |s| ≤ 2 ^ 20 → |l| ≤ 2 ^ 20 → |s + l| ≤ 2 ^ 22 := by
    intro s l hs hl
    have := abs_add_le s l
    norm_num at hs hl ⊢
    linarith
  have mx := S h1 wn2 (by norm_num) (T bx (half wl))
  have my := S h2 hn2 (by norm_num) (T by' (half hl))
  -- the radius
  obtain ⟨q, iq, hq⟩ := id h5
  obtain ⟨q1, q2⟩ := abs_le.1 hq
  have qp : (0 : ℝ) < q := by norm_num at q1 r0; linarith
  have qp' : 0 < q := by exact_mod_cast qp
  have twice : Near (1 / 2 ^ 21) (ρ *. num 2) (2 * r) := by
    have := near_mul h5 (near_is b2) (E := 22) (by norm_num) (by
      rw [abs_of_pos (by positivity)]
      norm_num at r1 ⊢
      linarith)
    norm_num at this
    rw [mul_comm] at this
    exact this.mono (by norm_num)
  have keep : ∀ {a : F64} {l : ℝ}, Near (1 / 2 ^ 21) a l → 2 * r + 1 / 2 ^ 20 ≤ l → GoFloat.lt a (ρ *. num 2) = false := by
    intro a l ⟨p, ip, hp⟩ hrl
    obtain ⟨t, it, ht⟩ := twice
    refine not_lt_of ip it ?_
    obtain ⟨p1, p2⟩ := abs_le.1 hp
    obtain ⟨t1, t2⟩ := abs_le.1 ht
    have : (t : ℝ) ≤ p := by norm_num at p1 t2 hrl; linarith
    exact_mod_cast this
  have st : Is (ρ /. ρ) 1 := by
    have := is_div iq iq qp'.ne' (by rw [div_self qp'.ne']; exact rep_one)
    rwa [div_self qp'.ne'] at this
  have st' : Is ((num 1 : F64) /. (ρ /. ρ)) 1 := by
    have := is_div o st one_ne_zero (by rw [div_one]; exact rep_one)
    rwa [div_one] at this
  obtain ⟨g, hg⟩ := (exactAtZero_of hL).deg
  have hz : Is ((num 0 : F64) *. GoFloat.piMul (1 / 180)) 0 := is_mul' z0 hg (zero_mul _) rep_zero
  obtain ⟨px, ipx, -⟩ := id mx
  obtain ⟨py, ipy, -⟩ := id my
  have fin : ∀ {a : F64} {s d : ℝ}, Near d a s → ∃ q, Is a q := fun ⟨q, i, _⟩ => ⟨q, i⟩
  have tx := is_neg_sub ipx (fin h1) (fin wn2)
  have ty := is_neg_sub ipy (fin h2) (fin hn2)
  have hI := isId_round (exactAtZero_of hL) ipx ipy tx ty hz st'
  -- upper and lower side
  have hs := near_mul_one hn2 st
  have lo := D my hs (by norm_num) (by
    have e : y + h / 2 - h / 2 = y := by ring
    rw [e]
    exact by'.trans (by norm_num))
  have hi := S my hs (by norm_num) (by
    have e : y + h / 2 + h / 2 = y + h := by ring
    rw [e]
    exact bh.trans (by norm_num))
  have e1 : y + h / 2 - h / 2 = y := by ring
  have e2 : y + h / 2 + h / 2 = y + h := by ring
  rw [e1] at lo
  rw [e2] at hi
  have lo' := lo.mono (d' := 1 / 2 ^ 19) (by norm_num)
  have hi' := hi.mono (d' := 1 / 2 ^ 19) (by norm_num)
  have xl := (S h1 h5 (by norm_num) (B (by linarith) (by linarith) |>.trans (by norm_num))).mono (d' := 1 / 2 ^ 18) (by norm_num)
  have xr := (D h3 h5 (by norm_num) (B (by linarith) (by linarith) |>.trans (by norm_num))).mono (d' := 1 / 2 ^ 18) (by norm_num)
  have yl := (S lo' h5 (by norm_num) (B (by linarith) (by linarith) |>.trans (by norm_num))).mono (d' := 1 / 2 ^ 18) (by norm_num)
  have yr := (D hi' h5 (by norm_num) (B (by linarith) (by linarith) |>.trans (by norm_num))).mono (d' := 1 / 2 ^ 18) (by norm_num)
  have bX1 : |x + r| ≤ 2 ^ 21 := B (by linarith) (by linarith)
  have bY1 : |y + r| ≤ 2 ^ 21 := B (by linarith) (by linarith)
  have bX2 : |x + w - r| ≤ 2 ^ 21 := B (by linarith) (by linarith)
  have bY2 : |y + h - r| ≤ 2 ^ 21 := B (by linarith) (by linarith)
  have bX0 : |x| ≤ 2 ^ 21 := B x1 x2
  have bY0 : |y| ≤ 2 ^ 21 := B y1 y2
  have bX3 : |x + w| ≤ 2 ^ 21 := B w1 w2
  have bY3 : |y + h| ≤ 2 ^ 21 := B k1 k2
  have h1' := h1.mono (d' := 1 / 2 ^ 18) (by norm_num)
  have h3' := h3.mono (d' := 1 / 2 ^ 18) (by norm_num)
  have lo2 := lo'.mono (d' := 1 / 2 ^ 18) (by norm_num)
  have hi2 := hi'.mono (d' := 1 / 2 ^ 18) (by norm_num)
  have ng : toFix (GoFloat.neg ρ) = -toFix ρ := by
    have qb : |q| < 2 ^ 53 := by
      have : |(q : ℝ)| < 2 ^ 53 := by rw [abs_of_pos qp]; norm_num at q2 r1 ⊢; linarith
      exact_mod_cast this
    have hn' : toFix (GoFloat.neg ρ) = toFix ((-q : ℚ) : ℝ) := toFix_is (is_neg iq) (by rwa [abs_neg])
    rw [toFix_is iq qb, hn']
    push_cast
    exact toFix_neg (by rw [abs_of_pos qp]; norm_num at q2 r1 ⊢; linarith)
  have nz : toFix (num 0 : F64) = 0 := by
    rw [toFix_is z0 (by norm_num), Rat.cast_zero, toFix_zero]
  have t1 : toFixedP (num 0) (GoFloat.neg ρ) = ⟨0, -toFix ρ⟩ := by unfold toFixedP; rw [nz, ng]
  have t2 : toFixedP ρ (num 0) = ⟨toFix ρ, 0⟩ := by unfold toFixedP; rw [nz]
  have t3 : toFixedP (num 0) ρ = ⟨0, toFix ρ⟩ := by unfold toFixedP; rw [nz]
  have t4 : toFixedP (GoFloat.neg ρ) (num 0) = ⟨-toFix ρ, 0⟩ := by unfold toFixedP; rw [nz, ng]
  have c1 := near_circle hI xr yl h5 bX2 bY1 r0 r1
  have c2 := near_circle hI xr yr h5 bX2 bY2 r0 r1
  have c3 := near_circle hI xl yr h5 bX1 bY2 r0 r1
  have c4 := near_circle hI xl yl h5 bX1 bY1 r0 r1
  obtain ⟨⟨g1, a1, b1⟩, -, -, -⟩ := corners_near hL hA c1.1 c1.2 hf
  obtain ⟨-, ⟨g2, a2, b2⟩, -, -⟩ := corners_near hL hA c2.1 c2.2 hf
  obtain ⟨-, -, ⟨g3, a3, b3⟩, -⟩ := corners_near hL hA c3.1 c3.2 hf
  obtain ⟨-, -, -, ⟨g4, a4, b4⟩⟩ := corners_near hL hA c4.1 c4.2 hf
  have nle : ¬ (GoFloat.le ρ (num 0) || GoFloat.le ρ (num 0)) = true := by
    have : GoFloat.le ρ (num 0) = false := not_le_of iq z0 qp'
    rw [this]
    simp
  unfold addRoundRect
  rw [if_neg nle]
  dsimp only
  rw [keep wn rw', keep hn rh]
  simp only [Bool.false_eq_true, if_false, t1, t2, t3, t4]
  erw [a1, a2, a3, a4]
  refine ⟨_, rfl, ?_⟩
  exact List.rel_append (List.rel_append (List.rel_append (List.rel_append (List.rel_append (List.rel_append (List.rel_append (List.rel_append
      (.cons (.moveTo (point_near hI xl lo2 bX1 bY0)) (.cons (.lineTo (point_near hI xr lo2 bX2 bY0)) .nil)) b1)
      (.cons (.lineTo (point_near hI h3' yr bX3 bY2)) .nil)) b2) (.cons (.lineTo (point_near hI xl hi2 bX1 bY3)) .nil)) b3)
      (.cons (.lineTo (point_near hI h1' yl bX0 bY1)) .nil)) b4) (.cons .close .nil)

end GoSvg.F64
