import Verif.Lemmas.EllipseError
import Verif.Props.Shapes
import Verif.Props.Documents

/-! C80: circles and ellipses in binary64. -/

namespace GoSvg.Spec

/-- The attribute `name` is the length `r`, percentages referring to the diagonal of the view box divided by the square root of two; a view box
that a percentage refers to is not tiny. -/
def SizedDiag [GoEnv] (vw vh : ℝ) (e : Nat) (attrs : List Attr) (name : String) (r : ℝ) : Prop :=
  SizedLen (Real.sqrt (vw ^ 2 + vh ^ 2) / Real.sqrt 2) e attrs name r ∧ (1 / 4 ≤ vw ^ 2 + vh ^ 2 ∨ ∀ v, Given attrs name v → '%' ∉ v)

/-- The radii of a circle or an ellipse: given by `r`, or by `rx` and `ry`, not by both. -/
def SizedRadii [GoEnv] (vw vh : ℝ) (e : Nat) (attrs : List Attr) (a b : ℝ) : Prop :=
  (SizedDiag vw vh e attrs "r" a ∧ b = a ∧ (∀ v, ¬ Given attrs "rx" v) ∧ ∀ v, ¬ Given attrs "ry" v) ∨
    (SizedLen vw e attrs "rx" a ∧ SizedLen vh e attrs "ry" b ∧ ∀ v, ¬ Given attrs "r" v)

end GoSvg.Spec

namespace GoSvg

open Spec F64

variable [Libm] [GoEnv]

/-! ### Percentages of the diagonal -/

omit [GoEnv] in
theorem near_root2 : Near (1 / 2 ^ 51) (root2 : F64) (Real.sqrt 2) := by
  have n2 : Near 0 (num 2 : F64) 2 := by simpa using near_num (n := 2) (by norm_num)
  have : Real.sqrt 2 ≤ 2 := by rw [Real.sqrt_le_left (by norm_num)]; norm_num
  exact (near_sqrt n2 (by norm_num) (by norm_num) (E := 2) (by norm_num) (by linarith)).mono (by norm_num)

omit [Libm] [GoEnv] in
theorem four_pow_bracket {r : ℝ} (h : 1 / 4 ≤ r) {e : Nat} (hr : r ≤ 4 ^ e) : ∃ E ≤ e, r ≤ 4 ^ E ∧ 4 ^ E ≤ 4 * r := by
  induction e with
  | zero => exact ⟨0, le_refl _, hr, by norm_num; linarith⟩
  | succ e ih =>
    by_cases h' : r ≤ 4 ^ e
    · obtain ⟨E, h1, h2⟩ := ih h'
      exact ⟨E, by omega, h2⟩
    · refine ⟨e + 1, le_refl _, hr, ?_⟩
      rw [pow_succ]
      linarith

omit [GoEnv] in
/-- The diagonal of the view box that percentages refer to. -/
theorem near_diag {w h : F64} {vw vh : ℚ} (hw : Is w vw) (hh : Is h vh) (h0 : (1 / 4 : ℝ) ≤ (vw : ℝ) ^ 2 + (vh : ℝ) ^ 2) {e : Nat} (he : e ≤ 24)
    (hb : Real.sqrt ((vw : ℝ) ^ 2 + (vh : ℝ) ^ 2) / Real.sqrt 2 ≤ 2 ^ e) :
    Near (2 ^ e / 2 ^ 46) (GoFloat.sqrt (w *. w +. h *. h) /. root2) (Real.sqrt ((vw : ℝ) ^ 2 + (vh : ℝ) ^ 2) / Real.sqrt 2) := by
  obtain ⟨r, hr⟩ : ∃ r : ℝ, r = (vw : ℝ) ^ 2 + (vh : ℝ) ^ 2 := ⟨_, rfl⟩
  rw [← hr] at h0 hb ⊢
  have s2 : 0 < Real.sqrt 2 := by positivity
  have hs2 : Real.sqrt 2 * Real.sqrt 2 = 2 := Real.mul_self_sqrt (by norm_num)
  have s2l : 1.4 ≤ Real.sqrt 2 := Real.le_sqrt_of_sq_le (by norm_num)
  have s2u : Real.sqrt 2 ≤ 2 := by rw [Real.sqrt_le_left (by norm_num)]; norm_num
  have hsr : Real.sqrt r * Real.sqrt r = r := Real.mul_self_sqrt (by linarith)
  have hsb : Real.sqrt r ≤ 2 ^ e * Real.sqrt 2 := by rwa [div_le_iff₀ s2] at hb
  have hrb : r ≤ 4 ^ (e + 1) := by
    have : Real.sqrt r ≤ 2 ^ (e + 1) := by
      rw [pow_succ]
      exact hsb.trans (mul_le_mul_of_nonneg_left s2u (by positivity))
    rw [← hsr, show (4 : ℝ) = 2 * 2 by norm_num, mul_pow]
    exact mul_le_mul this this (Real.sqrt_nonneg _) (by positivity)
  obtain ⟨E, hEe, hE1, hE2⟩ := four_pow_bracket h0 hrb
  have hpE : (0 : ℝ) < 2 ^ E := by positivity
  have e44 : (4 : ℝ) ^ E = 2 ^ E * 2 ^ E := by rw [← mul_pow]; norm_num
  have e2E : (2 : ℝ) ^ (2 * E) = 4 ^ E := by rw [pow_mul]; norm_num
  have eE1 : (2 : ℝ) ^ (E + 1) = 2 ^ E * 2 := pow_succ _ _
  have e2E1 : (2 : ℝ) ^ (2 * E + 1) = 4 ^ E * 2 := by rw [pow_succ, e2E]
  have b1 : (vw : ℝ) * vw ≤ 4 ^ E := by nlinarith [sq_nonneg (vh : ℝ)]
  have b2 : (vh : ℝ) * vh ≤ 4 ^ E := by nlinarith [sq_nonneg (vw : ℝ)]
  have m1 := near_mul (near_is hw) (near_is hw) (E := 2 * E) (by omega) (by
    rw [e2E, abs_of_nonneg (mul_self_nonneg _)]; simpa using b1)
  have m2 := near_mul (near_is hh) (near_is hh) (E := 2 * E) (by omega) (by
    rw [e2E, abs_of_nonneg (mul_self_nonneg _)]; simpa using b2)
  rw [e2E] at m1 m2
  simp only [zero_mul, mul_zero, add_zero, zero_add] at m1 m2
  have p4 : (0 : ℝ) < 4 ^ E := by positivity
  have hsum : (vw : ℝ) * vw + vh * vh = r := by rw [hr]; ring
  have m3 := near_add m1 m2 (E := 2 * E + 1) (by omega) (by
    rw [hsum, abs_of_nonneg (by linarith), e2E1]
    linarith)
  rw [hsum, e2E1] at m3
  have m3' : Near (4 ^ E / 2 ^ 52) (w *. w +. h *. h) r := m3.mono (by linarith)
  -- the root
  obtain ⟨p, p1, p2⟩ := m3'
  have hd : (4 : ℝ) ^ E / 2 ^ 52 ≤ r / 2 ^ 50 := by
    rw [div_le_div_iff₀ (by positivity) (by positivity)]
    nlinarith
  have hp0 : (0 : ℝ) < p := by
    have := (abs_le.1 p2).1
    linarith
  have hroot : 2 ^ E / 2 ≤ Real.sqrt r := Real.le_sqrt_of_sq_le (by rw [div_pow, pow_two, ← e44]; norm_num; linarith)
  have hroot' : Real.sqrt r ≤ 2 ^ E := by rw [Real.sqrt_le_left hpE.le, pow_two, ← e44]; exact hE1
  have k1 : |Real.sqrt p - Real.sqrt r| ≤ 2 ^ E / 2 ^ 51 := by
    have e1 : (Real.sqrt p - Real.sqrt r) * (Real.sqrt p + Real.sqrt r) = p - r := by
      have a := Real.mul_self_sqrt hp0.le
      linear_combination a - hsr
    have e2 : |Real.sqrt p - Real.sqrt r| * (Real.sqrt p + Real.sqrt r) ≤ 4 ^ E / 2 ^ 52 := by
      rw [← e1, abs_mul, abs_of_pos (by linarith [Real.sqrt_nonneg (p : ℝ)] : 0 < Real.sqrt p + Real.sqrt r)] at p2
      exact p2
    have e3 := mul_le_mul_of_nonneg_left (by linarith [Real.sqrt_nonneg (p : ℝ)] : 2 ^ E / 2 ≤ Real.sqrt p + Real.sqrt r)
      (abs_nonneg (Real.sqrt p - Real.sqrt r))
    have e4 := e3.trans e2
    rw [e44] at e4
    have e5 : |Real.sqrt p - Real.sqrt r| * 2 ^ E ≤ 2 ^ E / 2 ^ 51 * 2 ^ E := by
      linarith
    exact le_of_mul_le_mul_right e5 hpE
  obtain ⟨q, q0, q1, q2⟩ := sqrt_nearest p1 (by exact_mod_cast hp0)
  have k2 : |(q : ℝ) - Real.sqrt r| ≤ 2 ^ E / 2 ^ 50 := by
    have := abs_sub_le (q : ℝ) (Real.sqrt p) (Real.sqrt r)
    have h3 := (abs_le.1 k1).2
    have h4 : Real.sqrt p ≤ 2 * 2 ^ E := by linarith
    have h5 : Real.sqrt p / 2 ^ 60 ≤ 2 * 2 ^ E / 2 ^ 60 := div_le_div_of_nonneg_right h4 (by positivity)
    linarith
  have k3 : |Real.sqrt r| + 2 ^ E / 2 ^ 50 ≤ 2 ^ (E + 1) := by
    rw [abs_of_nonneg (Real.sqrt_nonneg _), eE1]
    linarith
  have m4 := near_round (q2 (pow_bound (E := E + 1) (by omega) (abs_le_of_near k2 k3))) k2 (E := E + 1) (by omega) k3
  have m4' : Near (2 ^ E / 2 ^ 49) (GoFloat.sqrt (w *. w +. h *. h)) (Real.sqrt r) := m4.mono (by rw [eE1]; linarith)
  have hW : |Real.sqrt r / Real.sqrt 2| ≤ 2 ^ E := by
    rw [abs_of_nonneg (by positivity), div_le_iff₀ s2]
    nlinarith
  have hWE : (2 : ℝ) ^ E ≤ 4 * 2 ^ e := by
    have : (2 : ℝ) ^ E / 2 ≤ 2 ^ e * 2 := hroot.trans (hsb.trans (mul_le_mul_of_nonneg_left s2u (by positivity)))
    linarith
  have hden : (1 : ℝ) ≤ |Real.sqrt 2| - 1 / 2 ^ 51 := by rw [abs_of_pos s2]; linarith
  have hq : (2 ^ E / 2 ^ 49 + |Real.sqrt r / Real.sqrt 2| * (1 / 2 ^ 51)) / (|Real.sqrt 2| - 1 / 2 ^ 51) ≤ 2 ^ E / 2 ^ 49 + 2 ^ E * (1 / 2 ^ 51) :=
    (div_le_self (by positivity) hden).trans (by gcongr)
  refine (near_div m4' near_root2 (E := E + 1) (by omega) (by rw [abs_of_pos s2]; linarith) ?_).mono ?_
  · rw [eE1]
    refine (add_le_add hW hq).trans ?_
    linarith
  · rw [eE1]
    refine (add_le_add hq (le_refl _)).trans ?_
    linarith

/-- C80, lengths: a length whose percentages refer to the diagonal of the view box is read with an error of at most `2^e / 2^43`. -/
theorem diag_near {e : Nat} (he : e ≤ 24) {attrs : List Attr} {name : String} {vw vh : ℚ} {r : ℝ} (vb : Bounds F64) (hw : Is vb.w vw) (hh : Is vb.h vh)
    (h0 : (1 / 4 : ℝ) ≤ (vw : ℝ) ^ 2 + (vh : ℝ) ^ 2)
    (h : SizedLen (Real.sqrt ((vw : ℝ) ^ 2 + (vh : ℝ) ^ 2) / Real.sqrt 2) e attrs name r) :
    ∃ x : F64, Len vb attrs name .diag x ∧ Near (2 ^ e / 2 ^ 42) x r := by
  have pe : (0 : ℝ) < 2 ^ e := by positivity
  have e1 : (2 : ℝ) ^ (e + 1) = 2 * 2 ^ e := by rw [pow_succ]; ring
  obtain ⟨hr, ⟨n, w, w', w'', u, f, hg, hn, hb, hb', hb'', hu, rfl⟩ | ⟨n, w, w', w'', hg, hn, hb, hb', hb'', hv, hWb, rfl⟩ | ⟨h1, rfl⟩⟩ := h
  · obtain ⟨x, x1, x2⟩ := unit_near (by omega) hn hb hb' hb'' hu hr vb .diag
    exact ⟨x, .inl ⟨_, hg, x1⟩, x2.mono (div_le_div_of_nonneg_left pe.le (by norm_num) (by norm_num))⟩
  · have hD := near_diag hw hh h0 he (le_of_abs_le hWb)
    generalize Real.sqrt ((vw : ℝ) ^ 2 + (vh : ℝ) ^ 2) / Real.sqrt 2 = W at *
    obtain ⟨D, hDd⟩ : ∃ D, D = GoFloat.sqrt (vb.w *. vb.w +. vb.h *. vb.h) /. (root2 : F64) := ⟨_, rfl⟩
    rw [← hDd] at hD
    obtain ⟨x, hx, p, hI, hnx⟩ := read_near hn (E := 10) (by norm_num) (by norm_num; exact hv)
    have htr : Trimmed n.text := trimmed_of_all fun c hc => isSpace_numChar (text_numChar hn c hc)
    have hk : findUnit (w ++ (n.text ++ w' ++ "%".toList) ++ w'') = (.perc, n.text) := findUnit_unit (by decide) htr (text_ne hn) hb hb' hb''
    have hu : (parseUnit (w ++ (n.text ++ w' ++ "%".toList) ++ w'') : Res (F64 × Bool)) = .ok (x *. num 1, true) := by
      simp only [parseUnit, hk, hx, toPx]; rfl
    have hres : resolveUnit vb (w ++ (n.text ++ w' ++ "%".toList) ++ w'') .diag = .ok ((x *. num 1) /. num 100 *. D) := by
      unfold resolveUnit
      rw [hu, hDd]
      rfl
    refine ⟨_, .inl ⟨_, hg, hres⟩, ?_⟩
    have n1 : Near (2 ^ 10 / 2 ^ 54) (x *. num 1) (n.value : ℝ) := ⟨p, is_mul_one hI, hnx⟩
    have n100 : Near 0 (num 100 : F64) (100 : ℝ) := by simpa using near_num (n := 100) (by norm_num)
    have hv : |(n.value : ℝ) / 100| ≤ 11 := by
      rw [abs_div, abs_of_pos (by norm_num : (0 : ℝ) < 100)]
      linarith
    have n2 := near_div n1 n100 (E := 4) (by norm_num) (by norm_num) (by
      rw [abs_of_pos (by norm_num : (0 : ℝ) < 100)]
      norm_num
      linarith)
    have n2' : Near (32 / 2 ^ 54) ((x *. num 1) /. num 100) ((n.value : ℝ) / 100) := n2.mono (by
      rw [abs_of_pos (by norm_num : (0 : ℝ) < 100)]
      norm_num)
    clear n2 n1 hnx
    generalize (n.value : ℝ) / 100 = v at *
    have t1 : (32 : ℝ) / 2 ^ 54 * |W| ≤ 32 / 2 ^ 54 * 2 ^ e := mul_le_mul_of_nonneg_left hWb (by positivity)
    have t2 : |v| * (2 ^ e / 2 ^ 46) ≤ 11 * (2 ^ e / 2 ^ 46) := mul_le_mul_of_nonneg_right hv (by positivity)
    refine (near_mul n2' hD (E := e + 1) (by omega) ?_).mono ?_
    · rw [e1]; linarith
    · rw [e1]; linarith
  · exact ⟨num 0, .inr ⟨h1, rfl⟩, 0, is_num rep_zero, by simp; positivity⟩

/-- C80, lengths: a length whose percentages refer to the diagonal of the view box is read with an error of at most `2^e / 2^42`. -/
theorem C80_radius {e : Nat} (he : e ≤ 24) {attrs : List Attr} {name : String} {vw vh : ℚ} {r : ℝ} (vb : Bounds F64) (hw : Is vb.w vw) (hh : Is vb.h vh)
    (h : SizedDiag vw vh e attrs name r) : ∃ x : F64, Len vb attrs name .diag x ∧ Near (2 ^ e / 2 ^ 42) x r := by
  obtain ⟨hl, h0 | h0⟩ := h
  · exact diag_near he vb hw hh h0 hl
  · have pe : (0 : ℝ) < 2 ^ e := by positivity
    obtain ⟨hr, ⟨n, w, w', w'', u, f, hg, hn, hb, hb', hb'', hu, rfl⟩ | ⟨n, w, w', w'', hg, hn, hb, hb', hb'', hv, hWb, rfl⟩ | ⟨h1, rfl⟩⟩ := hl
    · obtain ⟨x, x1, x2⟩ := unit_near (by omega) hn hb hb' hb'' hu hr vb .diag
      exact ⟨x, .inl ⟨_, hg, x1⟩, x2.mono (div_le_div_of_nonneg_left pe.le (by norm_num) (by norm_num))⟩
    · exact absurd (by simp) (h0 _ hg)
    · exact ⟨num 0, .inr ⟨h1, rfl⟩, 0, is_num rep_zero, by simp; positivity⟩

/-! ### The stored cubics -/

omit [Libm] [GoEnv] in
theorem OpWithin.mono {d d' : ℝ} {o : Op} {g : GOp ℝ} (h : OpWithin d o g) (hd : d ≤ d') : OpWithin d' o g := by
  have pt : ∀ {p : Pt} {r : Pnt ℝ}, PtWithin d p r → PtWithin d' p r := fun h => ⟨h.1.trans_le hd, h.2.trans_le hd⟩
  cases h with
  | moveTo h => exact .moveTo (pt h)
  | lineTo h => exact .lineTo (pt h)
  | quadTo h h' => exact .quadTo (pt h) (pt h')
  | cubicTo h h' h'' => exact .cubicTo (pt h) (pt h') (pt h'')
  | close => exact .close


/-- Seventeen cubics around the ellipse, beginning on the right. -/
noncomputable def turnCubics (X Y a b : ℝ) : List Cubic :=
  (List.range' 0 17).map fun j : ℕ => piece ⟨X, Y, a, b, 0⟩ (alphaOf stepR) (0 + stepR * j) stepR

omit [Libm] in
theorem turnCubics_follow {X Y a b : ℝ} (ha : a ≠ 0) (hb : b ≠ 0) : Follows ⟨X, Y, a, b, 0⟩ 0 (-(2 * Real.pi)) 17 (turnCubics X Y a b) := by
  have hpi := Real.pi_pos
  have := pieces_follow ⟨X, Y, a, b, 0⟩ ha hb (η := 0) (δ := -(2 * Real.pi)) (n := 17) (by norm_num) (by norm_num) (by
    rw [abs_neg, abs_of_pos (by positivity)]
    push_cast
    linarith)
  push_cast at this
  exact this

omit [Libm] [GoEnv] in
theorem turnCubics_eq (X Y a b : ℝ) : cubics ⟨X, Y, a, b, 0⟩ 0 stepR (alphaOf stepR) (X + a, Y) 17 0 (X + a, Y) = turnCubics X Y a b := by
  have hc := cubics_pieces ⟨X, Y, a, b, 0⟩ 0 stepR (alphaOf stepR) 17 0
  have e0 : (Ellipse.mk X Y a b 0).point (0 + stepR * (0 : ℕ)) = (X + a, Y) := by simp [Ellipse.point]
  have e1 : (Ellipse.mk X Y a b 0).point (0 + stepR * (0 + 17 : ℕ)) = (X + a, Y) := by
    have : (0 : ℝ) + stepR * (0 + 17 : ℕ) = -(2 * Real.pi) := by unfold stepR; push_cast; ring
    rw [this]
    simp [Ellipse.point]
  rw [e0, e1] at hc
  exact hc

omit [GoEnv] in
/-- The operations of an ellipse in binary64. -/
theorem ellipse_near (hL : Accurate) {e : Nat} {d : ℝ} {cx cy rx ry : F64} {X Y a b : ℝ} (h : Rough e d cx cy rx ry X Y a b) (ha : d < a) (hb : d < b)
    {pc : PathCursor F64} (hp : pc.path = []) :
    List.Forall₂ (OpWithin (1 / 64 + (3 * d + 2 ^ e / 2 ^ 39))) (ellipseAt cx cy rx ry pc).path
      (.moveTo (X + a, Y) :: (turnCubics X Y a b).map (fun c => .cubicTo c.p1 c.p2 c.p3) ++ [.close]) := by
  obtain ⟨p, p1, p2⟩ := h.cx
  obtain ⟨p', p1', p2'⟩ := h.cy
  obtain ⟨q, q1, q2⟩ := h.rx
  obtain ⟨q', q1', q2'⟩ := h.ry
  have pe : (0 : ℝ) < 2 ^ e := by positivity
  have hq : 0 < q := by
    have : (0 : ℝ) < q := by linarith [(abs_le.1 q2).1]
    exact_mod_cast this
  have hq' : 0 < q' := by
    have : (0 : ℝ) < q' := by linarith [(abs_le.1 q2').1]
    exact_mod_cast this
  have d0 := h.d0
  have d1 := h.d1
  have hsum := near_add h.cx h.rx (E := e + 2) (by have := h.he; omega) (by
    rw [pow_two_more]
    have := abs_add_le X a
    linarith [h.bX, h.ba])
  have hbig : |p + q| < 2 ^ (1024 : Int) - 2 ^ (970 : Int) := by
    apply pow_bound (E := e + 2) (by have := h.he; omega)
    have : |((p + q : ℚ) : ℝ)| ≤ 2 ^ (e + 2) := by
      rw [pow_two_more]
      push_cast
      have h1 := abs_add_le (p : ℝ) q
      have h2 := abs_sub_abs_le_abs_sub (p : ℝ) X
      have h3 := abs_sub_abs_le_abs_sub (q : ℝ) a
      linarith [h.bX, h.ba]
    exact_mod_cast this
  have ht := ellipse_turn hL p1 p1' q1 q1' hq hq' hbig
  have hs := turn_segs hL
  have hz : Is (.fin false 0 (-1074)) 0 := ⟨_, _, _, rfl, by norm_num, by simp⟩
  have hrot : Is ((num 0 : F64) *. GoFloat.piMul 1 /. num 180) 0 := by
    show Is (div (mul (roundRat false 0) (Libm.piMul 1)) (roundRat false 180)) 0
    rw [hL.piMul]
    have e : div (mul (roundRat false 0) (roundRat false (1 * goPi))) (roundRat false 180) = .fin false 0 (-1074) := by decide +kernel
    rw [e]
    exact hz
  obtain ⟨s, ee, hform⟩ := is_zero_form hrot
  have hsin : Is (GoFloat.sin ((num 0 : F64) *. GoFloat.piMul 1 /. num 180)) 0 := by
    rw [hform]
    show Is (Libm.sin _) 0
    rw [hL.sin_zero]
    exact ⟨_, _, _, rfl, by norm_num, by simp⟩
  have hcos : Is (GoFloat.cos ((num 0 : F64) *. GoFloat.piMul 1 /. num 180)) 1 := by
    rw [hform]
    exact hL.cos_zero _ _
  have hstep := near_seventeenth (near_neg (near_turn hL))
  have hal := near_alpha hL hstep
  have htan := near_tangent h hsin hcos hL (eta := .fin false 0 (-1074)) (η := 0 + stepR * (0 : ℕ)) ⟨0, hz, by norm_num⟩ (by norm_num)
  have hstart : Near (2 * d + 2 ^ e / 2 ^ 41) (cx +. rx) (X + a, Y).1 := hsum.mono (by rw [pow_two_more]; linarith)
  have hstart' : Near (2 * d + 2 ^ e / 2 ^ 41) cy (X + a, Y).2 := h.cy.mono (by linarith)
  have hst : |(X + a, Y).1| ≤ 2 * 2 ^ e ∧ |(X + a, Y).2| ≤ 2 * 2 ^ e := by
    have := abs_add_le X a
    exact ⟨by simp only; linarith [h.bX, h.ba], by simp only; linarith [h.bY]⟩
  have key := loop_near h hL (p := ⟨rx, ry, num 0, num 1, num 0, cx +. rx, cy⟩) rfl rfl hstart hstart' hst hsin hcos hz hstep hal 17 0 (by norm_num)
    (cx +. rx) cy _ _ (X + a, Y) hstart hstart' hst htan.1 htan.2
  rw [turnCubics_eq] at key
  have hpath : (ellipseAt cx cy rx ry pc).path = .moveTo (toFixedP (cx +. rx) cy) ::
      (addArc ⟨rx, ry, num 0, num 1, num 0, cx +. rx, cy⟩ cx cy (cx +. rx) cy).1 ++ [.close] := by
    unfold ellipseAt
    simp only [hp]
    rfl
  have harc : (addArc ⟨rx, ry, num 0, num 1, num 0, cx +. rx, cy⟩ cx cy (cx +. rx) cy).1 =
      (ellLoop ⟨rx, ry, num 0, num 1, num 0, cx +. rx, cy⟩ cx cy (GoFloat.sin ((num 0 : F64) *. GoFloat.piMul 1 /. num 180))
        (GoFloat.cos ((num 0 : F64) *. GoFloat.piMul 1 /. num 180)) (.fin false 0 (-1074)) (GoFloat.neg (GoFloat.piMul 2) /. GoFloat.ofInt 17)
        (GoFloat.sin (GoFloat.neg (GoFloat.piMul 2) /. GoFloat.ofInt 17) *. (GoFloat.sqrt (num 4 +. num 3 *.
          GoFloat.tan (GoFloat.neg (GoFloat.piMul 2) /. GoFloat.ofInt 17 /. num 2) *.
          GoFloat.tan (GoFloat.neg (GoFloat.piMul 2) /. GoFloat.ofInt 17 /. num 2)) -. num 1) /. num 3) 17 (0 + 1) (cx +. rx) cy
        (ellipsePrime rx ry (GoFloat.sin ((num 0 : F64) *. GoFloat.piMul 1 /. num 180))
          (GoFloat.cos ((num 0 : F64) *. GoFloat.piMul 1 /. num 180)) (.fin false 0 (-1074)) cx cy).1
        (ellipsePrime rx ry (GoFloat.sin ((num 0 : F64) *. GoFloat.piMul 1 /. num 180))
          (GoFloat.cos ((num 0 : F64) *. GoFloat.piMul 1 /. num 180)) (.fin false 0 (-1074)) cx cy).2).1 := by
    unfold addArc
    simp only [ht, hs]
    rfl
  rw [hpath, harc]
  have hm : PtWithin (1 / 64 + (3 * d + 2 ^ e / 2 ^ 39)) (toFixedP (cx +. rx) cy) (X + a, Y) := by
    have pe23 : (2 : ℝ) ^ e ≤ 2 ^ 23 := pow_le_pow_right₀ (by norm_num) h.he
    have hb1 := hst.1
    have hb2 := hst.2
    simp only at hb1 hb2
    exact ⟨near_fix (hstart.mono (by linarith)) (by simp only; linarith), near_fix (hstart'.mono (by linarith)) (by simp only; linarith)⟩
  exact List.Forall₂.cons (.moveTo hm) (List.rel_append key (List.Forall₂.cons .close .nil))

/-- C80 and C76: a circle or an ellipse is stored as a move to its right end, seventeen cubics and a close, each point less than 1/64 and the
rounding error away from cubics that follow the ellipse. -/
theorem ellipse_stored (hL : Accurate) {fuel : Nat} {name : Str} (hn : name = "circle".toList ∨ name = "ellipse".toList) {attrs : List Attr}
    (hd : Distinct attrs) {c : Cursor F64} {st : PathStyle F64} (hr : Ready c st) (hx : Is c.pc.curX 0) (hy : Is c.pc.curY 0) {e : Nat} (he : e ≤ 23)
    {vw vh : ℚ} (hvw : Is c.svg.viewBox.w vw) (hvh : Is c.svg.viewBox.h vh) {X Y a b : ℝ} (h1 : SizedLen vw e attrs "cx" X)
    (h2 : SizedLen vh e attrs "cy" Y) (h3 : SizedRadii vw vh e attrs a b) (ha : 2 ^ e / 2 ^ 42 < a) (hb : 2 ^ e / 2 ^ 42 < b) :
    ∃ ops, List.Forall₂ (OpWithin (1 / 64 + 2 ^ e / 2 ^ 38)) ops
        (.moveTo (X + a, Y) :: (turnCubics X Y a b).map (fun c => .cubicTo c.p1 c.p2 c.p3) ++ [.close]) ∧
      Adds (readStartElement fuel name attrs c) c [⟨ops, st⟩] := by
  have pe : (0 : ℝ) < 2 ^ e := by positivity
  have loose : (2 : ℝ) ^ e / 2 ^ 45 ≤ 2 ^ e / 2 ^ 42 := by linarith
  obtain ⟨x, l1, n1⟩ := C76_length (by omega) h1 c.svg.viewBox true hvw
  obtain ⟨y, l2, n2⟩ := C76_length (by omega) h2 c.svg.viewBox false hvh
  obtain ⟨rx, ry, l3, n3, n4, ba, bb⟩ : ∃ rx ry : F64, Radii c.svg.viewBox attrs rx ry ∧ Near (2 ^ e / 2 ^ 42) rx a ∧ Near (2 ^ e / 2 ^ 42) ry b ∧
      |a| ≤ 2 ^ e ∧ |b| ≤ 2 ^ e := by
    rcases h3 with ⟨h, rfl, g1, g2⟩ | ⟨h, h', g⟩
    · obtain ⟨r, r1, r2⟩ := C80_radius (by omega) c.svg.viewBox hvw hvh h
      exact ⟨r, r, .inl ⟨r1, rfl, g1, g2⟩, r2, r2, h.1.1, h.1.1⟩
    · obtain ⟨r, r1, r2⟩ := C76_length (by omega) h c.svg.viewBox true hvw
      obtain ⟨r', r1', r2'⟩ := C76_length (by omega) h' c.svg.viewBox false hvh
      exact ⟨r, r', .inr ⟨r1, r1', g⟩, r2.mono loose, r2'.mono loose, h.1, h'.1⟩
  have hrough : Rough e (2 ^ e / 2 ^ 42) (x +. c.pc.curX) (y +. c.pc.curY) rx ry X Y a b :=
    ⟨he, by positivity, by linarith, (near_add_zero n1 hx).mono loose, (near_add_zero n2 hy).mono loose, n3, n4, h1.1, h2.1, ba, bb⟩
  have hops := ellipse_near hL hrough ha hb hr.path
  have ne0 : ∀ {z : F64} {r : ℝ}, Near (2 ^ e / 2 ^ 42) z r → 2 ^ e / 2 ^ 42 < r → GoFloat.eq z (num 0) = false := by
    intro z r ⟨p, i1, i2⟩ hlt
    rw [Bool.eq_false_iff, ne_eq, is_eq_zero i1]
    rintro rfl
    rw [Rat.cast_zero, zero_sub, abs_neg] at i2
    linarith [le_abs_self r]
  have hdf : circleF attrs c = (.ok (), { c with pc := ellipseAt (x +. c.pc.curX) (y +. c.pc.curY) rx ry c.pc }) := by
    unfold circleF
    simp only [SM.bind_run, SM.get_run, SM.lift_run, circle_vars hd l1 l2 l3]
    rw [if_neg (by rw [ne0 n3 ha, ne0 n4 hb]; simp)]
    rw [SM.modify_run]
  have had := start_adds (drawFuncs_circle hn fuel _) hr hdf
  rw [if_neg (by intro hc; rw [hc] at hops; cases hops)] at had
  refine ⟨_, hops.imp fun o g ho => ?_, had⟩
  exact OpWithin.mono ho (by linarith)

section Drawn

variable {fuel : Nat} {m : ErrorMode} {root : Elem} {ch : List Elem} {attrs : List Attr} {lead body post : List Token} {s : Svg F64}

omit [Libm] [GoEnv] in
theorem turnCubics_up {e : Nat} {X Y a b : ℝ} (hX : |X| ≤ 2 ^ e) (hY : |Y| ≤ 2 ^ e) (ha : |a| ≤ 2 ^ e) (hb : |b| ≤ 2 ^ e) :
    ∀ o ∈ (GOp.moveTo (X + a, Y) :: (turnCubics X Y a b).map (fun c => GOp.cubicTo c.p1 c.p2 c.p3) ++ [.close] : List (GOp ℝ)), UpOp (e + 2) o := by
  have pe : (0 : ℝ) < 2 ^ e := by positivity
  have up : ∀ η, Up2 (e + 2) ((Ellipse.mk X Y a b 0).point η) := fun η => by
    have := point_abs hX hY ha hb η
    exact ⟨by rw [pow_two_more]; linarith, by rw [pow_two_more]; linarith⟩
  have small : ∀ {t : ℝ}, |t| ≤ 2 ^ e → |alphaOf stepR * t| ≤ 2 ^ e := fun {t} ht => by
    rw [abs_mul]
    exact (mul_le_of_le_one_left (abs_nonneg _) (alpha_abs.trans (by norm_num))).trans ht
  intro o ho
  rcases List.mem_append.1 ho with ho | ho
  · rcases List.mem_cons.1 ho with rfl | ho
    · have := abs_add_le X a
      exact ⟨by rw [pow_two_more]; simp only; linarith, by rw [pow_two_more]; simp only; linarith⟩
    · obtain ⟨c, hc, rfl⟩ := List.mem_map.1 ho
      obtain ⟨j, -, rfl⟩ := List.mem_map.1 hc
      refine ⟨?_, ?_, up _⟩
      · have h1 := point_abs hX hY ha hb (0 + stepR * j)
        have h2 := tangent_abs (X := X) (Y := Y) ha hb (0 + stepR * j)
        refine ⟨?_, ?_⟩ <;> rw [pow_two_more] <;> simp only [piece, Prod.fst_add, Prod.snd_add, Prod.smul_fst, Prod.smul_snd, smul_eq_mul]
        · exact (abs_add_le _ _).trans (by linarith [small h2.1, h1.1])
        · exact (abs_add_le _ _).trans (by linarith [small h2.2, h1.2])
      · have h1 := point_abs hX hY ha hb (0 + stepR * j + stepR)
        have h2 := tangent_abs (X := X) (Y := Y) ha hb (0 + stepR * j + stepR)
        refine ⟨?_, ?_⟩ <;> rw [pow_two_more] <;> simp only [piece, Prod.fst_sub, Prod.snd_sub, Prod.smul_fst, Prod.smul_snd, smul_eq_mul]
        · exact (abs_sub _ _).trans (by linarith [small h2.1, h1.1])
        · exact (abs_sub _ _).trans (by linarith [small h2.2, h1.2])
  · rcases List.mem_cons.1 ho with rfl | ho
    · trivial
    · cases ho

/-- C80, stored: a circle or an ellipse in a document contributes one path, a move to the right end of the ellipse, seventeen cubics and a close, every
point of which is at most 1/64 and the rounding error away from cubics that follow the ellipse. -/
theorem C80_stored (hL : Accurate) {name : Str} (hn : name = "circle".toList ∨ name = "ellipse".toList)
    (h : Parsed fuel m root ch name attrs lead body post s) {e : Nat} (he : e ≤ 23) {vx vy vw vh : ℚ} (hbox : BoxIs s.viewBox vx vy vw vh)
    {X Y a b : ℝ} (h1 : SizedLen vw e attrs "cx" X) (h2 : SizedLen vh e attrs "cy" Y) (h3 : SizedRadii vw vh e attrs a b)
    (ha : 2 ^ e / 2 ^ 42 < a) (hb : 2 ^ e / 2 ^ 42 < b) :
    ∃ cs, Follows ⟨X, Y, a, b, 0⟩ 0 (-(2 * Real.pi)) 17 cs ∧
      Contributes fuel m (lead ++ .start root.name root.attrs :: body) (.start name attrs) s
        fun ops => List.Forall₂ (OpWithin (1 / 64 + 2 ^ e / 2 ^ 38)) ops
          (.moveTo (X + a, Y) :: cs.map (fun c => .cubicTo c.p1 c.p2 c.p3) ++ [.close]) := by
  have pe : (0 : ℝ) < 2 ^ e / 2 ^ 42 := by positivity
  obtain ⟨l, hl'⟩ := h.result
  have hz : Is (num 0 : F64) 0 := F64.is_num F64.rep_zero
  exact ⟨_, turnCubics_follow (pe.trans ha).ne' (pe.trans hb).ne', stands_contributes h.place hl' fun c st hr hx hy hv =>
    ellipse_stored hL hn h.distinct hr (hx ▸ hz) (hy ▸ hz) he (hv ▸ hbox.w) (hv ▸ hbox.h) h1 h2 h3 ha hb⟩

/-- C80, drawn: without transforms the calls for a circle or an ellipse are those for cubics that follow the ellipse, mapped from the view box onto
the picture, up to the rounding of the stored points, scaled, and that of the scaled ones. -/
theorem C80_drawn [RxEnv F64] (hL : Accurate) {name : Str} (hn : name = "circle".toList ∨ name = "ellipse".toList)
    (h : Parsed fuel m root ch name attrs lead body post s)
    (hbal : Balanced (lead ++ .start root.name root.attrs :: body ++ [.start name attrs])) (hu : NoTransform (⟨name, attrs⟩ :: ch))
    {e j : Nat} (hej : e + 2 + j ≤ 22) {vx vy vw vh w' h' : ℚ} (hbox : BoxIs s.viewBox vx vy vw vh) (hw0 : vw ≠ 0) (hh0 : vh ≠ 0) {w ht : F64}
    (hwd : Is w w') (hht : Is ht h') (hvx : |(vx : ℝ)| ≤ 2 ^ (e + 2)) (hvy : |(vy : ℝ)| ≤ 2 ^ (e + 2)) (hsx : |(w' : ℝ) / vw| ≤ 2 ^ j)
    (hsy : |(h' : ℝ) / vh| ≤ 2 ^ j)
    {X Y a b : ℝ} (h1 : SizedLen vw e attrs "cx" X) (h2 : SizedLen vh e attrs "cy" Y) (h3 : SizedRadii vw vh e attrs a b)
    (ha : 2 ^ e / 2 ^ 42 < a) (hb : 2 ^ e / 2 ^ 42 < b) :
    ∃ cs, Follows ⟨X, Y, a, b, 0⟩ 0 (-(2 * Real.pi)) 17 cs ∧
    ∃ i pen, (∀ k, DrawnBy (F := F64) fuel m (lead ++ .start root.name root.attrs :: body) (.start name attrs) k ↔ k = i) ∧
      DrawnWith s [.target (num 0) (num 0) w ht] i pen ∧
      List.Forall₂ (CallWithin (|(w' : ℝ) / vw| * (1 / 64 + 2 ^ e / 2 ^ 38) + 1 / 64 + 2 ^ (e + 2 + j) / 2 ^ 47)
        (|(h' : ℝ) / vh| * (1 / 64 + 2 ^ e / 2 ^ 38) + 1 / 64 + 2 ^ (e + 2 + j) / 2 ^ 47) (onPicture vx vy (w' / vw) (h' / vh))) pen
        (.moveTo (X + a, Y) :: cs.map (fun c => .cubicTo c.p1 c.p2 c.p3) ++ [.close]) := by
  have pe : (0 : ℝ) < 2 ^ e / 2 ^ 42 := by positivity
  obtain ⟨l, hl'⟩ := h.result
  have hz : Is (num 0 : F64) 0 := F64.is_num F64.rep_zero
  refine ⟨_, turnCubics_follow (pe.trans ha).ne' (pe.trans hb).ne', ?_⟩
  refine drawn_element h hbal hu (stands_contributes h.place hl' fun c st hr hx hy hv => ?_) hej ?_ ?_ hbox hw0 hh0 hwd hht hvx hvy hsx hsy
  · exact ellipse_stored hL hn h.distinct hr (hx ▸ hz) (hy ▸ hz) (by omega) (hv ▸ hbox.w) (hv ▸ hbox.h) h1 h2 h3 ha hb
  · exact (stored_le e (by norm_num)).trans (pow_le_pow_right₀ (by norm_num) (by omega))
  · refine turnCubics_up h1.1 h2.1 ?_ ?_
    · rcases h3 with ⟨h, -⟩ | ⟨h, -⟩
      · exact h.1.1
      · exact h.1
    · rcases h3 with ⟨h, rfl, -⟩ | ⟨-, h, -⟩
      · exact h.1.1
      · exact h.1

end Drawn

end GoSvg

namespace GoSvg

open Spec F64

section Examples

/-- A number of at most 51 binary places, close to a real number. -/
noncomputable def nearby (r : ℝ) : F64 := roundRat false ((⌊r * 2 ^ 51⌋ : ℚ) / 2 ^ 51)

theorem nearby_fine {r : ℝ} (h : |r| ≤ 2) : Fine (nearby r) r := by
  have f1 := Int.floor_le (r * 2 ^ 51)
  have f2 := Int.lt_floor_add_one (r * 2 ^ 51)
  have b : |⌊r * 2 ^ 51⌋| ≤ 2 ^ 52 := by
    rw [abs_le] at h
    rw [abs_le]
    constructor
    · exact Int.le_floor.2 (by push_cast; linarith)
    · have : ((⌊r * 2 ^ 51⌋ : ℤ) : ℝ) ≤ ((2 ^ 52 : ℤ) : ℝ) := by push_cast; linarith
      exact_mod_cast this
  refine ⟨_, roundRat_exact _ ⟨⌊r * 2 ^ 51⌋.natAbs, -51, by rw [abs_le] at b; omega, by norm_num, by norm_num, ?_⟩, ?_⟩
  · rw [abs_div, Nat.cast_natAbs, Int.cast_abs, abs_of_pos (by positivity : (0 : ℚ) < 2 ^ 51), zpow_neg, div_eq_mul_inv]
    rfl
  · generalize ⌊r * 2 ^ 51⌋ = z at f1 f2
    push_cast
    rw [abs_le]
    constructor <;> linarith

/-- The value of a finite number. -/
def valueOf : F64 → ℚ
  | .fin s m e => if s then -((m : ℚ) * 2 ^ e) else m * 2 ^ e
  | _ => 0

theorem valueOf_is {x : F64} {q : ℚ} (h : Is x q) : valueOf x = q := by
  obtain ⟨s, m, e, rfl, -, h⟩ := h
  exact h

/-- A mathematics library that meets `Accurate`. -/
noncomputable def fineLibm : Libm where
  sin x := match x with
    | .fin s 0 _ => .fin s 0 (-1074)
    | x => nearby (Real.sin (valueOf x))
  cos x := nearby (Real.cos (valueOf x))
  tan x := nearby (Real.tan (valueOf x))
  atan2 y x := match y with
    | .fin _ 0 _ => if x.sign then roundRat false (1 * goPi) else .fin false 0 (-1074)
    | .fin false _ _ => roundRat false (1 / 2 * goPi)
    | _ => neg (roundRat false (1 / 2 * goPi))
  piMul q := roundRat false (q * goPi)

attribute [local instance] asciiEnv
attribute [local instance] fineLibm

theorem tan_le_two {a : ℝ} (h : |a| ≤ 1) : |Real.tan a| ≤ 2 := by
  have hc := Real.one_sub_sq_div_two_le_cos (x := a)
  have h2 : a ^ 2 ≤ 1 := by rw [← sq_abs]; nlinarith [abs_nonneg a]
  have hs := Real.abs_sin_le_abs (x := a)
  rw [Real.tan_eq_sin_div_cos, abs_div, abs_of_pos (by linarith : 0 < Real.cos a), div_le_iff₀ (by linarith)]
  linarith

theorem fine_accurate : Accurate where
  piMul _ := rfl
  sin x q h _ := by
    by_cases hx : ∃ s e, x = .fin s 0 e
    · obtain ⟨s, e, rfl⟩ := hx
      have hq := valueOf_is h
      simp [valueOf] at hq
      subst hq
      exact ⟨0, ⟨s, 0, -1074, rfl, by norm_num, by simp⟩, by simp⟩
    · have : Libm.sin x = nearby (Real.sin (valueOf x)) := by
        show (match x with | .fin s 0 _ => F64.fin s 0 (-1074) | x => nearby (Real.sin (valueOf x))) = _
        split
        · rename_i s e; exact absurd ⟨s, e, rfl⟩ hx
        · rfl
      rw [this, valueOf_is h]
      exact nearby_fine ((Real.abs_sin_le_one _).trans (by norm_num))
  cos x q h _ := by
    show Fine (nearby _) _
    rw [valueOf_is h]
    exact nearby_fine ((Real.abs_cos_le_one _).trans (by norm_num))
  tan x q h hq := by
    show Fine (nearby _) _
    rw [valueOf_is h]
    have : |(q : ℝ)| ≤ 1 := by have := (Rat.cast_le (K := ℝ)).2 hq; push_cast at this; exact this
    exact nearby_fine (tan_le_two this)
  sin_zero _ _ := rfl
  cos_zero s e := by
    show Is (nearby (Real.cos ((valueOf (.fin s 0 e) : ℚ) : ℝ))) 1
    have : valueOf (.fin s 0 e) = 0 := by simp [valueOf]
    rw [this, Rat.cast_zero, Real.cos_zero]
    unfold nearby
    have h1 : ((⌊(1 : ℝ) * 2 ^ 51⌋ : ℤ) : ℚ) / 2 ^ 51 = 1 := by
      have : ⌊(1 : ℝ) * 2 ^ 51⌋ = 2 ^ 51 := by
        rw [one_mul]; exact_mod_cast Int.floor_natCast (R := ℝ) (2 ^ 51)
      rw [this]; norm_num
    rw [h1]
    exact roundRat_exact _ (by simpa using rep_nat (n := 1) (by norm_num))
  atan2_zero _ x _ h := by
    show (if x.sign then roundRat false (1 * goPi) else F64.fin false 0 (-1074)) = _
    rw [h]
    rfl

/-- The document with the element in place is read, and its view box is that of the root. -/
theorem draw_parsed' (name : String) (attrs : List Attr) (hd : Distinct attrs)
    (h : ((drawBody ++ .start name.toList attrs :: placePost name).all fun t => match t with | .start n _ => n ≠ "svg".toList | _ => true) = true)
    (hp : (match parse (F := F64) 8 .strict ([] ++ .start drawRoot.name drawRoot.attrs :: (drawBody ++ .start name.toList attrs :: placePost name)) .eof with
      | .done (some s) none _ => s.viewBox = iconBox | _ => false) = true) :
    ∃ s : Svg F64, Parsed 8 .strict drawRoot drawCh name.toList attrs [] drawBody (placePost name) s ∧ BoxIs s.viewBox 0 0 24 24 := by
  split at hp
  · rename_i s l hs
    have hv : s.viewBox = iconBox := of_decide_eq_true hp
    exact ⟨s, ⟨⟨by decide, ⟨by decide +kernel, by decide +kernel, .inr (by decide +kernel)⟩, by decide +kernel, by decide +kernel, by decide +kernel,
      noSvg_of h⟩, hd, l, hs⟩, hv ▸ iconBox_is⟩
  · cases hp

/-- Some rasterizer. -/
local instance exRx' : RxEnv F64 := ⟨fun _ => (⟨0, 0⟩, ⟨0, 0⟩)⟩

set_option maxRecDepth 100000 in
/-- The hypotheses of `C80_drawn` are met by `<circle cx="50%" cy="12.5" r="10%"/>`: a circle of radius 2.4 about (12, 12.5). -/
example : ∃ (s : Svg F64) (cs : List Cubic), Follows ⟨12, 12.5, 2.4, 2.4, 0⟩ 0 (-(2 * Real.pi)) 17 cs ∧ ∃ (i : Nat) (pen : List (Event F64)) (d : ℝ),
    DrawnWith s [.target (num 0) (num 0) (num 100) (num 100)] i pen ∧ d ≤ 1 / 10 ∧
    List.Forall₂ (CallWithin d d (onPicture ((0 : ℚ) : ℝ) ((0 : ℚ) : ℝ) (((100 : ℚ) : ℝ) / ((24 : ℚ) : ℝ)) (((100 : ℚ) : ℝ) / ((24 : ℚ) : ℝ)))) pen
      (.moveTo (12 + 2.4, 12.5) :: cs.map (fun c => .cubicTo c.p1 c.p2 c.p3) ++ [.close]) := by
  obtain ⟨A, hA⟩ : ∃ A, A = attrsOf [("cx", "50%"), ("cy", "12.5"), ("r", "10%")] := ⟨_, rfl⟩
  obtain ⟨s, hs, hbox⟩ := draw_parsed' "circle" A (by rw [hA]; decide) (by rw [hA]; decide +kernel) (by rw [hA]; decide +kernel)
  have hdiag : Real.sqrt (((24 : ℚ) : ℝ) ^ 2 + ((24 : ℚ) : ℝ) ^ 2) / Real.sqrt 2 = ((24 : ℚ) : ℝ) := by
    have : ((24 : ℚ) : ℝ) ^ 2 + ((24 : ℚ) : ℝ) ^ 2 = 24 ^ 2 * 2 := by norm_num
    rw [this, Real.sqrt_mul (by norm_num), Real.sqrt_sq (by norm_num), mul_div_assoc, div_self (by simp)]
    norm_num
  obtain ⟨cs, h1, i, pen, -, h2, h3⟩ := C80_drawn fine_accurate (.inl rfl) hs
    (draw_balanced (by rw [hA]; decide +kernel) (by rw [hA]; decide +kernel) (by rw [hA]; decide +kernel))
    (by rw [hA]; unfold NoTransform; decide +kernel) (e := 5) (j := 3) (by norm_num) hbox (by norm_num) (by norm_num)
    is_hundred is_hundred (by norm_num) (by norm_num) (by norm_num [abs_le]) (by norm_num [abs_le])
    (sizedLen_percent ⟨false, "50".toList, none, none⟩ (v := 50) (r := 12) (by decide +kernel) (by rw [hA]; decide +kernel) (by decide +kernel)
      (by norm_num) (by norm_num) (by norm_num) (by norm_num [abs_le]))
    (sizedLen_of ⟨false, "12".toList, some "5".toList, none⟩ "" 1 (v := 25 / 2) (r := 25 / 2) (by decide +kernel)
      (by rw [hA]; decide +kernel) (by decide +kernel) (by simp [Spec.units]) (by norm_num) (by norm_num [abs_le]))
    (a := ((12 / 5 : ℚ) : ℝ)) (b := ((12 / 5 : ℚ) : ℝ))
    (.inl ⟨⟨by
      rw [hdiag]
      exact sizedLen_percent ⟨false, "10".toList, none, none⟩ (v := 10) (r := 12 / 5) (by decide +kernel) (by rw [hA]; decide +kernel) (by decide +kernel)
        (by norm_num) (by norm_num) (by norm_num) (by norm_num [abs_le]), .inl (by norm_num)⟩, rfl, not_given (by rw [hA]; decide),
      not_given (by rw [hA]; decide)⟩) (by norm_num) (by norm_num)
  norm_num only [Rat.cast_div, Rat.cast_ofNat] at h1
  have e1 : (.moveTo (12 + 2.4, 12.5) : GOp ℝ) = .moveTo (((12 : ℚ) : ℝ) + ((12 / 5 : ℚ) : ℝ), ((25 / 2 : ℚ) : ℝ)) := by norm_num
  rw [e1]
  refine ⟨s, cs, by norm_num; exact h1, i, pen, _, h2, ?_, h3⟩
  rw [abs_of_pos (by norm_num)]
  norm_num

end Examples

end GoSvg
