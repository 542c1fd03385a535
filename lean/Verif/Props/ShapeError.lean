import Verif.Props.EndToEnd

/-! C76: lengths and basic shapes in binary64, off the grid. -/

namespace GoSvg.Spec

/-- The attribute `name` is the length `r`, of magnitude at most `2^e`: a number with one of the units, a percentage (up to 1024) of `W`, or, if
there is no such attribute, zero. -/
def SizedLen [GoEnv] (W : ℝ) (e : Nat) (attrs : List Attr) (name : String) (r : ℝ) : Prop :=
  |r| ≤ 2 ^ e ∧
  ((∃ (n : Spelling) (w w' w'' u : Str) (f : Rat), Given attrs name (w ++ (n.text ++ w' ++ u) ++ w'') ∧ n.WF ∧ Blank w ∧ Blank w' ∧ Blank w'' ∧
      (u, f) ∈ units ∧ r = n.value * f) ∨
    (∃ (n : Spelling) (w w' w'' : Str), Given attrs name (w ++ (n.text ++ w' ++ "%".toList) ++ w'') ∧ n.WF ∧ Blank w ∧ Blank w' ∧ Blank w'' ∧
      |(n.value : ℝ)| ≤ 1024 ∧ |W| ≤ 2 ^ e ∧ r = n.value / 100 * W) ∨
    ((∀ v, ¬ Given attrs name v) ∧ r = 0))

/-- The length that percentages refer to. -/
def extentOf {F : Type} (vb : Bounds F) : Bool → F
  | true => vb.w
  | false => vb.h

end GoSvg.Spec

namespace GoSvg

open Spec F64

variable [Libm] [GoEnv]

theorem read_near {n : Spelling} (hn : n.WF) {E : Nat} (hE : E ≤ 52) (hb : |(n.value : ℝ)| ≤ 2 ^ E) :
    ∃ x : F64, GoFloat.parse n.text = some x ∧ Near (2 ^ E / 2 ^ 54) x (n.value : ℝ) := by
  have hb' : |n.value| ≤ 2 ^ E := by exact_mod_cast hb
  obtain ⟨x, hx, hnr⟩ := parse_nearest hn (by rw [← abs_value]; exact pow_bound hE hb')
  refine ⟨x, hx, ?_⟩
  have := near_round (d := 0) (r := (n.value : ℝ)) hnr (by simp) hE (by simpa using hb)
  simpa using this

omit [GoEnv] in
theorem num_near {q : ℚ} {E : Nat} (hE : E ≤ 52) (hb : |(q : ℝ)| ≤ 2 ^ E) : Near (2 ^ E / 2 ^ 54) (num q : F64) (q : ℝ) := by
  have hb' : |q| ≤ 2 ^ E := by exact_mod_cast hb
  have := near_round (d := 0) (r := (q : ℝ)) (roundRat_nearest false (pow_bound hE hb')) (by simp) hE (by simpa using hb)
  rwa [zero_add] at this

omit [Libm] [GoEnv] in
theorem units_bounds {u : Str} {f : Rat} (h : (u, f) ∈ units) : 1 / 2 ≤ f ∧ f ≤ 96 := by
  have : f ∈ units.map (·.2) := List.mem_map.2 ⟨_, h, rfl⟩
  simp only [units, List.map_cons, List.map_nil, List.mem_cons, List.not_mem_nil, or_false] at this
  rcases this with h | h | h | h | h | h | h | h <;> rw [h] <;> norm_num

/-- A length in one of the units, whatever percentages refer to. -/
theorem unit_near_all {e : Nat} (he : e ≤ 40) {n : Spelling} {w w' w'' u : Str} {f : Rat} (hn : n.WF) (hw : Blank w) (hw' : Blank w') (hw'' : Blank w'')
    (hu : (u, f) ∈ units) (hr : |(n.value : ℝ) * f| ≤ 2 ^ e) (vb : Bounds F64) :
    ∃ x : F64, (∀ ref, resolveUnit vb (w ++ (n.text ++ w' ++ u) ++ w'') ref = .ok x) ∧ Near (2 ^ e / 2 ^ 45) x ((n.value : ℝ) * f) := by
  have pe : (0 : ℝ) < 2 ^ e := by positivity
  have e1 : (2 : ℝ) ^ (e + 1) = 2 * 2 ^ e := by rw [pow_succ]; ring
  obtain ⟨f1, f2⟩ := units_bounds hu
  have f1' : (1 / 2 : ℝ) ≤ f := by
    have : ((1 / 2 : ℚ) : ℝ) ≤ f := by exact_mod_cast f1
    norm_num at this ⊢
    exact this
  have f2' : (f : ℝ) ≤ 96 := by exact_mod_cast f2
  have hf0 : (0 : ℝ) < f := by linarith
  have hv : |(n.value : ℝ)| ≤ 2 ^ (e + 1) := by
    rw [abs_mul, abs_of_pos hf0] at hr
    rw [e1]
    have := mul_le_mul_of_nonneg_left f1' (abs_nonneg (n.value : ℝ))
    linarith
  obtain ⟨x, hx, hnx⟩ := read_near hn (E := e + 1) (by omega) hv
  have hnf := num_near (q := f) (E := 7) (by norm_num) (by rw [abs_of_pos hf0]; norm_num; linarith)
  refine ⟨x *. num f, fun ref => ((C03_units n hn hu hw hw' hw'' vb ref).1 x hx).2, ?_⟩
  have t1 : 2 ^ (e + 1) / 2 ^ 54 * |(f : ℝ)| ≤ 192 * 2 ^ e / 2 ^ 54 := by
    rw [abs_of_pos hf0, e1]
    have := mul_le_mul_of_nonneg_left f2' (by positivity : (0 : ℝ) ≤ 2 * 2 ^ e / 2 ^ 54)
    linarith
  have t2 : |(n.value : ℝ)| * (2 ^ 7 / 2 ^ 54) ≤ 256 * 2 ^ e / 2 ^ 54 := by
    rw [e1] at hv
    have := mul_le_mul_of_nonneg_right hv (by positivity : (0 : ℝ) ≤ 2 ^ 7 / 2 ^ 54)
    linarith
  have t3 : (2 : ℝ) ^ (e + 1) / 2 ^ 54 * (2 ^ 7 / 2 ^ 54) ≤ 2 ^ e / 2 ^ 54 := by
    rw [e1]
    have : (2 : ℝ) * 2 ^ e / 2 ^ 54 * (2 ^ 7 / 2 ^ 54) = 2 ^ e / 2 ^ 54 * (256 / 2 ^ 54) := by ring
    rw [this]
    exact mul_le_of_le_one_right (by positivity) (by norm_num)
  have := near_mul hnx hnf (E := e + 1) (by omega) (by
    rw [e1] at t1 t3 ⊢
    have : (449 : ℝ) * 2 ^ e / 2 ^ 54 ≤ 2 ^ e := by rw [div_le_iff₀ (by positivity)]; nlinarith
    have e2 : (449 : ℝ) * 2 ^ e / 2 ^ 54 = 192 * 2 ^ e / 2 ^ 54 + 256 * 2 ^ e / 2 ^ 54 + 2 ^ e / 2 ^ 54 := by ring
    linarith)
  refine this.mono ?_
  have e3 : (2 : ℝ) ^ e / 2 ^ 45 = 192 * 2 ^ e / 2 ^ 54 + 256 * 2 ^ e / 2 ^ 54 + 2 ^ e / 2 ^ 54 + 63 * 2 ^ e / 2 ^ 54 := by ring
  have e4 : (2 : ℝ) ^ (e + 1) / 2 ^ 54 ≤ 63 * 2 ^ e / 2 ^ 54 := div_le_div_of_nonneg_right (by rw [e1]; linarith) (by positivity)
  rw [e3]
  linarith

theorem unit_near {e : Nat} (he : e ≤ 40) {n : Spelling} {w w' w'' u : Str} {f : Rat} (hn : n.WF) (hw : Blank w) (hw' : Blank w') (hw'' : Blank w'')
    (hu : (u, f) ∈ units) (hr : |(n.value : ℝ) * f| ≤ 2 ^ e) (vb : Bounds F64) (ref : PercRef) :
    ∃ x : F64, resolveUnit vb (w ++ (n.text ++ w' ++ u) ++ w'') ref = .ok x ∧ Near (2 ^ e / 2 ^ 45) x ((n.value : ℝ) * f) := by
  obtain ⟨x, h1, h2⟩ := unit_near_all he hn hw hw' hw'' hu hr vb
  exact ⟨x, h1 ref, h2⟩

/-- C76: a length in any unit, or a percentage, is read with an error of at most `2^e / 2^45`. -/
theorem C76_length {e : Nat} (he : e ≤ 40) {attrs : List Attr} {name : String} {W : ℚ} {r : ℝ} (h : SizedLen W e attrs name r) (vb : Bounds F64)
    (b : Bool) (hW : Is (extentOf vb b) W) :
    ∃ x : F64, Len vb attrs name (if b then .width else .height) x ∧ Near (2 ^ e / 2 ^ 45) x r := by
  have pe : (0 : ℝ) < 2 ^ e := by positivity
  have e1 : (2 : ℝ) ^ (e + 1) = 2 * 2 ^ e := by rw [pow_succ]; ring
  obtain ⟨hr, ⟨n, w, w', w'', u, f, hg, hn, hw, hw', hw'', hu, rfl⟩ | ⟨n, w, w', w'', hg, hn, hw, hw', hw'', hb, hWb, rfl⟩ | ⟨h1, rfl⟩⟩ := h
  · obtain ⟨x, x1, x2⟩ := unit_near he hn hw hw' hw'' hu hr vb (if b then .width else .height)
    exact ⟨x, .inl ⟨_, hg, x1⟩, x2⟩
  · obtain ⟨x, hx, p, hI, hnx⟩ := read_near hn (E := 10) (by norm_num) (by norm_num; exact hb)
    have htr : Trimmed n.text := trimmed_of_all fun c hc => isSpace_numChar (text_numChar hn c hc)
    have hk : findUnit (w ++ (n.text ++ w' ++ "%".toList) ++ w'') = (.perc, n.text) := findUnit_unit (by decide) htr (text_ne hn) hw hw' hw''
    have hu : (parseUnit (w ++ (n.text ++ w' ++ "%".toList) ++ w'') : Res (F64 × Bool)) = .ok (x *. num 1, true) := by
      simp only [parseUnit, hk, hx, toPx]; rfl
    have hres : resolveUnit vb (w ++ (n.text ++ w' ++ "%".toList) ++ w'') (if b then .width else .height) =
        .ok ((x *. num 1) /. num 100 *. extentOf vb b) := by
      unfold resolveUnit
      rw [hu]
      cases b <;> rfl
    refine ⟨_, .inl ⟨_, hg, hres⟩, ?_⟩
    have n1 : Near (2 ^ 10 / 2 ^ 54) (x *. num 1) (n.value : ℝ) := ⟨p, is_mul_one hI, hnx⟩
    have n100 : Near 0 (num 100 : F64) (100 : ℝ) := by
      have := near_is (is_num (q := 100) (by simpa using rep_nat (n := 100) (by norm_num)))
      simpa using this
    have hv : |(n.value : ℝ) / 100| ≤ 11 := by
      rw [abs_div, abs_of_pos (by norm_num : (0 : ℝ) < 100)]
      linarith
    have n2 := near_div n1 n100 (E := 4) (by norm_num) (by norm_num) (by
      rw [abs_of_pos (by norm_num : (0 : ℝ) < 100)]
      norm_num
      linarith)
    have n2' : Near (32 / 2 ^ 54) ((x *. num 1) /. num 100) ((n.value : ℝ) / 100) := n2.mono (by
      rw [abs_of_pos (by norm_num : (0 : ℝ) < 100)]
      norm_num)
    have t1 : (32 : ℝ) / 2 ^ 54 * |(W : ℝ)| ≤ 32 * 2 ^ e / 2 ^ 54 := by
      have := mul_le_mul_of_nonneg_left hWb (by positivity : (0 : ℝ) ≤ 32 / 2 ^ 54)
      linarith
    have n3 := near_mul n2' (near_is hW) (E := e + 1) (by omega) (by
      rw [e1]
      have : (32 : ℝ) * 2 ^ e / 2 ^ 54 ≤ 2 ^ e := by rw [div_le_iff₀ (by positivity)]; nlinarith
      linarith)
    refine n3.mono ?_
    have e3 : (2 : ℝ) ^ e / 2 ^ 45 = 32 * 2 ^ e / 2 ^ 54 + 2 * 2 ^ e / 2 ^ 54 + 478 * 2 ^ e / 2 ^ 54 := by ring
    have e4 : 0 ≤ (478 : ℝ) * 2 ^ e / 2 ^ 54 := by positivity
    rw [e3, e1]
    linarith
  · exact ⟨num 0, .inr ⟨h1, rfl⟩, 0, is_num rep_zero, by simp; positivity⟩

/-- C76, lines: both ends are stored less than 1/64 and the error of the lengths from where they are. -/
theorem C76_line {fuel : Nat} {attrs : List Attr} (hd : Distinct attrs) {c : Cursor F64} {st : PathStyle F64} (hr : Ready c st)
    (hx : Is c.pc.curX 0) (hy : Is c.pc.curY 0) {e : Nat} (he : e ≤ 24) {vw vh : ℚ} (hvw : Is c.svg.viewBox.w vw) (hvh : Is c.svg.viewBox.h vh)
    {x1 y1 x2 y2 : ℝ} (h1 : SizedLen vw e attrs "x1" x1) (h2 : SizedLen vh e attrs "y1" y1) (h3 : SizedLen vw e attrs "x2" x2)
    (h4 : SizedLen vh e attrs "y2" y2) :
    ∃ ops, List.Forall₂ (OpWithin (1 / 64 + 2 ^ e / 2 ^ 45)) ops [.moveTo (x1, y1), .lineTo (x2, y2)] ∧
      Adds (readStartElement fuel "line".toList attrs c) c [⟨ops, st⟩] := by
  have hb : ∀ {r : ℝ}, |r| ≤ 2 ^ e → |r| + 2 ^ e / 2 ^ 45 < 2 ^ 25 := by
    intro r h
    have : (2 : ℝ) ^ e ≤ 2 ^ 24 := pow_le_pow_right₀ (by norm_num) he
    have h' : (2 : ℝ) ^ e / 2 ^ 45 ≤ 2 ^ 24 / 2 ^ 45 := div_le_div_of_nonneg_right this (by positivity)
    norm_num at h' this ⊢
    linarith
  obtain ⟨a1, l1, n1⟩ := C76_length (by omega) h1 c.svg.viewBox true hvw
  obtain ⟨a2, l2, n2⟩ := C76_length (by omega) h2 c.svg.viewBox false hvh
  obtain ⟨a3, l3, n3⟩ := C76_length (by omega) h3 c.svg.viewBox true hvw
  obtain ⟨a4, l4, n4⟩ := C76_length (by omega) h4 c.svg.viewBox false hvh
  have := C17_line (fuel := fuel) hd hr l1 l2 l3 l4
  have pt : ∀ {a b : F64} {r s : ℝ}, Near (2 ^ e / 2 ^ 45) a r → Near (2 ^ e / 2 ^ 45) b s → |r| ≤ 2 ^ e → |s| ≤ 2 ^ e →
      PtWithin (1 / 64 + 2 ^ e / 2 ^ 45) (toFixedP (a +. c.pc.curX) (b +. c.pc.curY)) (r, s) :=
    fun ha hb' hr hs => ⟨near_stored ha hx (hb hr), near_stored hb' hy (hb hs)⟩
  refine ⟨_, ?_, this⟩
  exact .cons (.moveTo (pt n1 n2 h1.1 h2.1)) (.cons (.lineTo (pt n3 n4 h3.1 h4.1)) .nil)

omit [GoEnv] in
theorem is_eq_zero {x : F64} {p : ℚ} (h1 : Is x p) : GoFloat.eq x (num 0) = true ↔ p = 0 := by
  have h0 : Is (num 0 : F64) 0 := is_num rep_zero
  have v1 := is_val h1
  have v0 := is_val h0
  obtain ⟨s, m, e, rfl, -⟩ := h1
  obtain ⟨t, m', e', h0, -⟩ := h0
  rw [h0] at v0 ⊢
  show decide _ = true ↔ _
  rw [decide_eq_true_iff, v1, v0]

omit [GoEnv] in
theorem near_add_zero {d : ℝ} {x z : F64} {r : ℝ} (h : Near d x r) (hz : Is z 0) : Near d (x +. z) r := by
  obtain ⟨p, h1, h2⟩ := h
  exact ⟨p, is_add' h1 hz (add_zero _) (is_rep h1), h2⟩

/-- C76, rectangles without rounded corners: the four corners are stored less than 1/64 and the error of the lengths from where they are. -/
theorem C76_rect (hL : ExactAtZero) {fuel : Nat} {attrs : List Attr} (hd : Distinct attrs) {c : Cursor F64} {st : PathStyle F64}
    (hr : Ready c st) (hx : Is c.pc.curX 0) (hy : Is c.pc.curY 0) {e : Nat} (he : e ≤ 23) {vw vh : ℚ} (hvw : Is c.svg.viewBox.w vw)
    (hvh : Is c.svg.viewBox.h vh) {x y w h : ℝ} (h1 : SizedLen vw e attrs "x" x) (h2 : SizedLen vh e attrs "y" y)
    (h3 : SizedLen vw e attrs "width" w) (h4 : SizedLen vh e attrs "height" h) (h5 : ∀ v, ¬ Given attrs "rx" v) (h6 : ∀ v, ¬ Given attrs "ry" v)
    (hw : 2 ^ e / 2 ^ 45 < |w|) (hh : 2 ^ e / 2 ^ 45 < |h|) (hb : |x + w| ≤ 2 ^ e ∧ |y + h| ≤ 2 ^ e) :
    ∃ ops, List.Forall₂ (OpWithin (1 / 64 + 2 ^ e / 2 ^ 43)) ops
        [.moveTo (x, y), .lineTo (x + w, y), .lineTo (x + w, y + h), .lineTo (x, y + h), .close] ∧
      Adds (readStartElement fuel "rect".toList attrs c) c [⟨ops, st⟩] := by
  have pe : (0 : ℝ) < 2 ^ e := by positivity
  have pe24 : (2 : ℝ) ^ e ≤ 2 ^ 23 := pow_le_pow_right₀ (by norm_num) he
  have e1 : (2 : ℝ) ^ (e + 1) = 2 * 2 ^ e := by rw [pow_succ]; ring
  have e2 : (2 : ℝ) ^ (e + 2) = 4 * 2 ^ e := by rw [pow_add]; ring
  have u43 : (2 : ℝ) ^ e / 2 ^ 43 ≤ 1 := by
    rw [div_le_one (by positivity)]
    exact pe24.trans (by norm_num)
  have u45 : (2 : ℝ) ^ e / 2 ^ 43 = 4 * (2 ^ e / 2 ^ 45) := by ring
  have p45 : (0 : ℝ) < 2 ^ e / 2 ^ 45 := by positivity
  have small : (2 : ℝ) ^ e / 2 ^ 43 ≤ 2 ^ e / 2 := div_le_div_of_nonneg_left pe.le (by norm_num) (by norm_num)
  have hbd : ∀ {r : ℝ}, |r| ≤ 2 ^ e → |r| + 2 ^ e / 2 ^ 43 < 2 ^ 25 := by
    intro r h
    norm_num at pe24 u43 ⊢
    linarith
  obtain ⟨a1, l1, n1⟩ := C76_length (by omega) h1 c.svg.viewBox true hvw
  obtain ⟨a2, l2, n2⟩ := C76_length (by omega) h2 c.svg.viewBox false hvh
  obtain ⟨a3, l3, n3⟩ := C76_length (by omega) h3 c.svg.viewBox true hvw
  obtain ⟨a4, l4, n4⟩ := C76_length (by omega) h4 c.svg.viewBox false hvh
  have l5 : Len c.svg.viewBox attrs "rx" .width (num 0) := .inr ⟨h5, rfl⟩
  have l6 : Len c.svg.viewBox attrs "ry" .height (num 0) := .inr ⟨h6, rfl⟩
  have ne0 : ∀ {a : F64} {r : ℝ}, Near (2 ^ e / 2 ^ 45) a r → 2 ^ e / 2 ^ 45 < |r| → ¬ GoFloat.eq a (num 0) = true := by
    intro a r ⟨p, i1, i2⟩ hlt hc
    rw [is_eq_zero i1] at hc
    rw [hc, Rat.cast_zero, zero_sub, abs_neg] at i2
    linarith
  have sum : ∀ {a b z : F64} {r s : ℝ}, Near (2 ^ e / 2 ^ 45) a r → Near (2 ^ e / 2 ^ 45) b s → Is z 0 → |s + r| ≤ 2 ^ e →
      Near (2 ^ e / 2 ^ 43) (a +. b +. z) (s + r) := by
    intro a b z r s ha hb hz h
    rw [add_comm] at h ⊢
    refine near_add_zero ?_ hz
    have := near_add ha hb (E := e + 1) (by omega) (by rw [e1]; linarith)
    refine this.mono ?_
    have e3 : (2 : ℝ) ^ (e + 1) / 2 ^ 54 ≤ 2 * (2 ^ e / 2 ^ 45) := by
      rw [e1, mul_div_assoc]
      have : (2 : ℝ) ^ e / 2 ^ 54 ≤ 2 ^ e / 2 ^ 45 := div_le_div_of_nonneg_left pe.le (by norm_num) (by norm_num)
      linarith
    rw [u45]
    linarith
  have f1 : Near (2 ^ e / 2 ^ 43) (a1 +. c.pc.curX) x := (near_add_zero n1 hx).mono (by linarith)
  have f2 : Near (2 ^ e / 2 ^ 43) (a2 +. c.pc.curY) y := (near_add_zero n2 hy).mono (by linarith)
  have f3 : Near (2 ^ e / 2 ^ 43) (a3 +. a1 +. c.pc.curX) (x + w) := sum n3 n1 hx hb.1
  have f4 : Near (2 ^ e / 2 ^ 43) (a4 +. a2 +. c.pc.curY) (y + h) := sum n4 n2 hy hb.2
  have mid : ∀ {a b : F64} {r s : ℝ}, Near (2 ^ e / 2 ^ 43) a r → Near (2 ^ e / 2 ^ 43) b s → |r| ≤ 2 ^ e → |s| ≤ 2 ^ e →
      ∃ q, Is ((a +. b) /. num 2) q := by
    intro a b r s ha hb hr hs
    have := abs_add_le r s
    have m1 := near_add ha hb (E := e + 2) (by omega) (by rw [e2]; linarith)
    obtain ⟨p, i1, i2⟩ := m1
    have b2 : Is (num 2 : F64) 2 := is_num (by simpa using rep_nat (n := 2) (by norm_num))
    have : |(p : ℝ)| ≤ 2 ^ (e + 3) := by
      have h1 := abs_sub_abs_le_abs_sub (p : ℝ) (r + s)
      have e3 : (2 : ℝ) ^ (e + 3) = 8 * 2 ^ e := by rw [pow_add]; ring
      have e4 : (2 : ℝ) ^ (e + 2) / 2 ^ 54 ≤ 2 ^ (e + 2) := div_le_self (by positivity) (by norm_num)
      rw [e2] at e4 i2
      rw [e3]
      linarith
    have m2 := near_div (near_is i1) (near_is b2) (E := e + 3) (by omega) (by norm_num) (by
      norm_num
      rw [abs_div]
      norm_num
      have := abs_nonneg (p : ℝ)
      linarith)
    obtain ⟨q, hq, -⟩ := m2
    exact ⟨q, hq⟩
  obtain ⟨p, hp⟩ := mid f1 f3 h1.1 hb.1
  obtain ⟨q, hq⟩ := mid f2 f4 h2.1 hb.2
  obtain ⟨g, hg⟩ := hL.deg
  have hz : Is ((num 0 : F64) *. GoFloat.piMul (1 / 180)) 0 := is_mul' (is_num rep_zero) hg (zero_mul _) rep_zero
  obtain ⟨M, hM⟩ : ∃ M, (((Matrix2D.identity.translate ((a1 +. c.pc.curX +. (a3 +. a1 +. c.pc.curX)) /. num 2)
        ((a2 +. c.pc.curY +. (a4 +. a2 +. c.pc.curY)) /. num 2)).rotate ((num 0 : F64) *. GoFloat.piMul (1 / 180))).translate
        (GoFloat.neg ((a1 +. c.pc.curX +. (a3 +. a1 +. c.pc.curX)) /. num 2))
        (GoFloat.neg ((a2 +. c.pc.curY +. (a4 +. a2 +. c.pc.curY)) /. num 2))) = M := ⟨_, rfl⟩
  have hI := isId_turn hL hp hq hz
  rw [hM] at hI
  have ht : ∀ {u v : F64} {r s : ℝ}, Near (2 ^ e / 2 ^ 43) u r → Near (2 ^ e / 2 ^ 43) v s → |r| ≤ 2 ^ e → |s| ≤ 2 ^ e →
      PtWithin (1 / 64 + 2 ^ e / 2 ^ 43)
      (M.tFixed (toFixedP u v)) (r, s) := by
    intro u v r s hu hv hr hs
    have k1 := near_fix hu (hbd hr)
    have k2 := near_fix hv (hbd hs)
    have range : ∀ {z : ℤ} {t : ℝ}, |(z / 64 : ℝ) - t| < 1 / 64 + 2 ^ e / 2 ^ 43 → |t| ≤ 2 ^ e → -2 ^ 31 ≤ z ∧ z < 2 ^ 31 := by
      intro z t h1 h2
      have h3 := abs_lt.1 h1
      have h4 := abs_le.1 h2
      constructor
      · have : ((-2 ^ 31 : ℤ) : ℝ) ≤ z := by push_cast; linarith
        exact_mod_cast this
      · have : (z : ℝ) < ((2 ^ 31 : ℤ) : ℝ) := by push_cast; linarith
        exact_mod_cast this
    have r1 := range k1 hr
    have r2 := range k2 hs
    rw [show toFixedP u v = ⟨toFix u, toFix v⟩ from rfl]
    generalize toFix u = zu at *
    generalize toFix v = zv at *
    rw [tFixed_id hI ⟨zu, zv⟩ r1 r2]
    exact ⟨k1, k2⟩
  have ho : ∃ ops, rectOps fuel c.pc.curX c.pc.curY ⟨a1, a2, a3, a4, num 0, num 0⟩ = some ops ∧ List.Forall₂ (OpWithin (1 / 64 + 2 ^ e / 2 ^ 43)) ops
      [.moveTo (x, y), .lineTo (x + w, y), .lineTo (x + w, y + h), .lineTo (x, y + h), .close] := by
    unfold rectOps
    rw [if_neg (by
      rw [Bool.or_eq_true, not_or]
      exact ⟨ne0 n3 hw, ne0 n4 hh⟩)]
    unfold addRoundRect
    dsimp only
    rw [if_pos]
    · unfold addRect
      dsimp only
      rw [hM]
      refine ⟨_, rfl, ?_⟩
      have t1 := ht f1 f2 h1.1 h2.1
      have t2 := ht f3 f2 hb.1 h2.1
      have t3 := ht f3 f4 hb.1 hb.2
      have t4 := ht f1 f4 h1.1 hb.2
      generalize M.tFixed (toFixedP (a1 +. c.pc.curX) (a2 +. c.pc.curY)) = q1 at t1 ⊢
      generalize M.tFixed (toFixedP (a3 +. a1 +. c.pc.curX) (a2 +. c.pc.curY)) = q2 at t2 ⊢
      generalize M.tFixed (toFixedP (a3 +. a1 +. c.pc.curX) (a4 +. a2 +. c.pc.curY)) = q3 at t3 ⊢
      generalize M.tFixed (toFixedP (a1 +. c.pc.curX) (a4 +. a2 +. c.pc.curY)) = q4 at t4 ⊢
      exact List.Forall₂.cons (.moveTo t1) (List.Forall₂.cons (.lineTo t2) (List.Forall₂.cons (.lineTo t3) (List.Forall₂.cons (.lineTo t4)
        (List.Forall₂.cons .close .nil))))
    · rw [Bool.or_eq_true]
      have l0 := (e_le_zero (e_zero 0)).2 (le_refl _)
      right
      split <;> exact l0
  obtain ⟨ops, o1, o2⟩ := ho
  refine ⟨ops, o2, ?_⟩
  have := rect_adds hd hr ⟨l1, l2, l3, l4, l5, l6⟩ o1
  rw [if_neg (by rintro rfl; cases o2)] at this
  exact this

omit [Libm] [GoEnv] in
theorem forall₂_pairs {R : F64 → ℝ → Prop} : ∀ {vs : List F64} {ps : List (ℝ × ℝ)}, List.Forall₂ R vs (coords ps) →
    ∃ qs : List (F64 × F64), vs = coords qs ∧ List.Forall₂ (R2 R) qs ps
  | _, [], .nil => ⟨[], rfl, .nil⟩
  | _, p :: ps, h => by
    cases h with
    | cons h1 h =>
      cases h with
      | cons h2 h =>
        obtain ⟨qs, e, hq⟩ := forall₂_pairs h
        exact ⟨(_, _) :: qs, by rw [e]; rfl, .cons ⟨h1, h2⟩ hq⟩

/-- C76, polylines and polygons of three or more points: each point is stored less than 1/64 and the rounding error of its numbers from where it is.
Partial: as in exact arithmetic. -/
theorem C76_poly_partial {fuel : Nat} {closed : Bool} {attrs : List Attr} (hd : Distinct attrs) {c : Cursor F64} {st : PathStyle F64}
    (hr : Ready c st) (hx : Is c.pc.curX 0) (hy : Is c.pc.curY 0) {e : Nat} (he : e ≤ 24) {p : ℝ × ℝ} {pts : List (ℝ × ℝ)}
    {l : GroupList} (hl : l.WF) (hv : Given attrs "points" l.text) (hc : l.numbers.map (fun n => (n.value : ℝ)) = coords (p :: pts))
    (hg : ∀ r ∈ p :: pts, Up2 e r) (h2 : 2 ≤ pts.length) :
    ∃ ops, List.Forall₂ (OpWithin (1 / 64 + 2 ^ e / 2 ^ 54)) ops (.moveTo p :: pts.map .lineTo ++ (if closed then [.close] else [])) ∧
      Adds (readStartElement fuel (if closed then "polygon" else "polyline").toList attrs c) c [⟨ops, st⟩] := by
  have hcoord : ∀ {ps : List (ℝ × ℝ)}, (∀ r ∈ ps, Up2 e r) → ∀ r ∈ coords ps, |r| ≤ 2 ^ e := by
    intro ps
    induction ps with
    | nil => intro _ r hr; cases hr
    | cons q ps ih =>
      intro h r hr
      have hq := h q List.mem_cons_self
      rcases List.mem_cons.1 hr with rfl | hr
      · exact hq.1
      rcases List.mem_cons.1 hr with rfl | hr
      · exact hq.2
      · exact ih (fun s hs => h s (List.mem_cons_of_mem _ hs)) r hr
  obtain ⟨vs, h1, hE⟩ := readAll_near (e := e) (by omega) l.numbers (groupList_numbers_wf hl) (by
    intro n hn
    exact hcoord hg _ (hc ▸ List.mem_map.2 ⟨n, hn, rfl⟩))
  rw [hc] at hE
  obtain ⟨qs, e1, hq⟩ := forall₂_pairs hE
  have hu : ulp e / 4 = 2 ^ e / 2 ^ 54 := by unfold ulp; rw [div_div]; norm_num
  have hb : ∀ {r : ℝ}, |r| ≤ 2 ^ e → |r| + ulp e / 4 < 2 ^ 25 := by
    intro r h
    have : (2 : ℝ) ^ e ≤ 2 ^ 24 := pow_le_pow_right₀ (by norm_num) he
    have h' : (2 : ℝ) ^ e / 2 ^ 54 ≤ 2 ^ 24 / 2 ^ 54 := div_le_div_of_nonneg_right this (by positivity)
    rw [hu]
    norm_num at h' this ⊢
    linarith
  have pt : ∀ {q : F64 × F64} {r : ℝ × ℝ}, R2 (Rd e) q r → Up2 e r →
      PtWithin (1 / 64 + 2 ^ e / 2 ^ 54) (toFixedP (q.1 +. c.pc.curX) (q.2 +. c.pc.curY)) r := by
    intro q r h hr
    rw [← hu]
    exact ⟨near_stored h.1 hx (hb hr.1), near_stored h.2 hy (hb hr.2)⟩
  cases hq with
  | @cons q _ qs _ hq0 hqs =>
    have hlen : qs.length = pts.length := hqs.length_eq
    have := C17_poly_partial (fuel := fuel) (closed := closed) hd hr (p := q) (pts := qs) hv ⟨l, vs, rfl, hl, h1, e1.symm⟩ (by omega)
    refine ⟨_, ?_, this⟩
    refine .cons (.moveTo (pt hq0 (hg _ List.mem_cons_self))) ?_
    have hlast : List.Forall₂ (OpWithin (1 / 64 + 2 ^ e / 2 ^ 54)) (if closed then [.close] else []) (if closed then [.close] else []) := by
      cases closed
      · exact .nil
      · exact .cons .close .nil
    have hmid : List.Forall₂ (OpWithin (1 / 64 + 2 ^ e / 2 ^ 54)) (qs.map (fun q => .lineTo (toFixedP (q.1 +. c.pc.curX) (q.2 +. c.pc.curY))))
        (pts.map .lineTo) := by
      have hg' := fun r hr => hg r (List.mem_cons_of_mem _ hr)
      clear this hlen hE e1 h2 hc hg
      induction hqs with
      | nil => exact .nil
      | cons h _ ih => exact .cons (.lineTo (pt h (hg' _ List.mem_cons_self))) (ih fun r hr => hg' r (List.mem_cons_of_mem _ hr))
    exact List.rel_append hmid hlast

section Drawn

variable {fuel : Nat} {m : ErrorMode} {root : Elem} {ch : List Elem} {attrs : List Attr} {lead body post : List Token} {s : Svg F64}

omit [Libm] [GoEnv] in
theorem stored_le (e : Nat) {k : Nat} (hk : 1 ≤ k) : (1 / 64 + 2 ^ e / 2 ^ k : ℝ) ≤ 2 ^ e := by
  have h1 : (1 : ℝ) ≤ 2 ^ e := one_le_pow₀ (by norm_num)
  have h2 : (2 : ℝ) ^ e / 2 ^ k ≤ 2 ^ e / 2 ^ 1 := div_le_div_of_nonneg_left (by positivity) (by norm_num) (pow_le_pow_right₀ (by norm_num) hk)
  norm_num at h2
  linarith

/-- C75 for lines, with lengths in any unit and percentages. -/
theorem C75_line [RxEnv F64] (h : Parsed fuel m root ch "line".toList attrs lead body post s)
    (hb : Balanced (lead ++ .start root.name root.attrs :: body ++ [.start "line".toList attrs])) (hu : NoTransform (⟨"line".toList, attrs⟩ :: ch))
    {e j : Nat} (hej : e + j ≤ 22) {vx vy vw vh w' h' : ℚ} (hbox : BoxIs s.viewBox vx vy vw vh) (hw0 : vw ≠ 0) (hh0 : vh ≠ 0) {w ht : F64}
    (hwd : Is w w') (hht : Is ht h') (hvx : |(vx : ℝ)| ≤ 2 ^ e) (hvy : |(vy : ℝ)| ≤ 2 ^ e) (hsx : |(w' : ℝ) / vw| ≤ 2 ^ j)
    (hsy : |(h' : ℝ) / vh| ≤ 2 ^ j)
    {x1 y1 x2 y2 : ℝ} (h1 : SizedLen vw e attrs "x1" x1) (h2 : SizedLen vh e attrs "y1" y1) (h3 : SizedLen vw e attrs "x2" x2)
    (h4 : SizedLen vh e attrs "y2" y2) :
    ∃ i pen, (∀ k, DrawnBy (F := F64) fuel m (lead ++ .start root.name root.attrs :: body) (.start "line".toList attrs) k ↔ k = i) ∧
      DrawnWith s [.target (num 0) (num 0) w ht] i pen ∧
      List.Forall₂ (CallWithin (|(w' : ℝ) / vw| * (1 / 64 + 2 ^ e / 2 ^ 45) + 1 / 64 + 2 ^ (e + j) / 2 ^ 47)
        (|(h' : ℝ) / vh| * (1 / 64 + 2 ^ e / 2 ^ 45) + 1 / 64 + 2 ^ (e + j) / 2 ^ 47) (onPicture vx vy (w' / vw) (h' / vh))) pen
        [.moveTo (x1, y1), .lineTo (x2, y2)] := by
  obtain ⟨l, hl'⟩ := h.result
  have hz : Is (num 0 : F64) 0 := F64.is_num F64.rep_zero
  refine drawn_element h hb hu (stands_contributes h.place hl' fun c st hr hx hy hv => ?_) hej (stored_le e (by norm_num)) ?_ hbox hw0 hh0 hwd hht hvx hvy hsx hsy
  · exact C76_line h.distinct hr (hx ▸ hz) (hy ▸ hz) (by omega) (hv ▸ hbox.w) (hv ▸ hbox.h) h1 h2 h3 h4
  · intro o ho
    simp only [List.mem_cons, List.not_mem_nil, or_false] at ho
    rcases ho with rfl | rfl
    · exact ⟨h1.1, h2.1⟩
    · exact ⟨h3.1, h4.1⟩

/-- C75 for rectangles with square corners, with lengths in any unit and percentages. -/
theorem C75_rect [RxEnv F64] (hL : ExactAtZero) (h : Parsed fuel m root ch "rect".toList attrs lead body post s)
    (hb : Balanced (lead ++ .start root.name root.attrs :: body ++ [.start "rect".toList attrs])) (hu : NoTransform (⟨"rect".toList, attrs⟩ :: ch))
    {e j : Nat} (hej : e + j ≤ 22) {vx vy vw vh w' h' : ℚ} (hbox : BoxIs s.viewBox vx vy vw vh) (hw0 : vw ≠ 0) (hh0 : vh ≠ 0) {w ht : F64}
    (hwd : Is w w') (hht : Is ht h') (hvx : |(vx : ℝ)| ≤ 2 ^ e) (hvy : |(vy : ℝ)| ≤ 2 ^ e) (hsx : |(w' : ℝ) / vw| ≤ 2 ^ j)
    (hsy : |(h' : ℝ) / vh| ≤ 2 ^ j)
    {x y rw rh : ℝ} (h1 : SizedLen vw e attrs "x" x) (h2 : SizedLen vh e attrs "y" y)
    (h3 : SizedLen vw e attrs "width" rw) (h4 : SizedLen vh e attrs "height" rh) (h5 : ∀ v, ¬ Given attrs "rx" v) (h6 : ∀ v, ¬ Given attrs "ry" v)
    (hrw : 2 ^ e / 2 ^ 45 < |rw|) (hrh : 2 ^ e / 2 ^ 45 < |rh|) (hc : |x + rw| ≤ 2 ^ e ∧ |y + rh| ≤ 2 ^ e) :
    ∃ i pen, (∀ k, DrawnBy (F := F64) fuel m (lead ++ .start root.name root.attrs :: body) (.start "rect".toList attrs) k ↔ k = i) ∧
      DrawnWith s [.target (num 0) (num 0) w ht] i pen ∧
      List.Forall₂ (CallWithin (|(w' : ℝ) / vw| * (1 / 64 + 2 ^ e / 2 ^ 43) + 1 / 64 + 2 ^ (e + j) / 2 ^ 47)
        (|(h' : ℝ) / vh| * (1 / 64 + 2 ^ e / 2 ^ 43) + 1 / 64 + 2 ^ (e + j) / 2 ^ 47) (onPicture vx vy (w' / vw) (h' / vh))) pen
        [.moveTo (x, y), .lineTo (x + rw, y), .lineTo (x + rw, y + rh), .lineTo (x, y + rh), .close] := by
  obtain ⟨l, hl'⟩ := h.result
  have hz : Is (num 0 : F64) 0 := F64.is_num F64.rep_zero
  refine drawn_element h hb hu (stands_contributes h.place hl' fun c st hr hx hy hv => ?_) hej (stored_le e (by norm_num)) ?_ hbox hw0 hh0 hwd hht hvx hvy hsx hsy
  · exact C76_rect hL h.distinct hr (hx ▸ hz) (hy ▸ hz) (by omega) (hv ▸ hbox.w) (hv ▸ hbox.h) h1 h2 h3 h4 h5 h6 hrw hrh hc
  · intro o ho
    simp only [List.mem_cons, List.not_mem_nil, or_false] at ho
    rcases ho with rfl | rfl | rfl | rfl | rfl
    · exact ⟨h1.1, h2.1⟩
    · exact ⟨hc.1, h2.1⟩
    · exact ⟨hc.1, hc.2⟩
    · exact ⟨h1.1, hc.2⟩
    · trivial

/-- C75 for polylines and polygons of three or more points. Partial: as in exact arithmetic, see `C17_two_points_false`, `C17_no_points_false`. -/
theorem C75_poly_partial [RxEnv F64] {closed : Bool} (h : Parsed fuel m root ch (if closed then "polygon" else "polyline").toList attrs lead body post s)
    (hb : Balanced (lead ++ .start root.name root.attrs :: body ++ [.start (if closed then "polygon" else "polyline").toList attrs])) (hu : NoTransform (⟨(if closed then "polygon" else "polyline").toList, attrs⟩ :: ch))
    {e j : Nat} (hej : e + j ≤ 22) {vx vy vw vh w' h' : ℚ} (hbox : BoxIs s.viewBox vx vy vw vh) (hw0 : vw ≠ 0) (hh0 : vh ≠ 0) {w ht : F64}
    (hwd : Is w w') (hht : Is ht h') (hvx : |(vx : ℝ)| ≤ 2 ^ e) (hvy : |(vy : ℝ)| ≤ 2 ^ e) (hsx : |(w' : ℝ) / vw| ≤ 2 ^ j)
    (hsy : |(h' : ℝ) / vh| ≤ 2 ^ j)
    {p : ℝ × ℝ} {pts : List (ℝ × ℝ)} {g : GroupList} (hg : g.WF) (hp : Given attrs "points" g.text)
    (hc : g.numbers.map (fun n => (n.value : ℝ)) = coords (p :: pts)) (hup : ∀ r ∈ p :: pts, Up2 e r) (h2 : 2 ≤ pts.length) :
    ∃ i pen, (∀ k, DrawnBy (F := F64) fuel m (lead ++ .start root.name root.attrs :: body) (.start (if closed then "polygon" else "polyline").toList attrs) k ↔ k = i) ∧
      DrawnWith s [.target (num 0) (num 0) w ht] i pen ∧
      List.Forall₂ (CallWithin (|(w' : ℝ) / vw| * (1 / 64 + 2 ^ e / 2 ^ 54) + 1 / 64 + 2 ^ (e + j) / 2 ^ 47)
        (|(h' : ℝ) / vh| * (1 / 64 + 2 ^ e / 2 ^ 54) + 1 / 64 + 2 ^ (e + j) / 2 ^ 47) (onPicture vx vy (w' / vw) (h' / vh))) pen
        (.moveTo p :: pts.map .lineTo ++ (if closed then [.close] else [])) := by
  obtain ⟨l, hl'⟩ := h.result
  have hz : Is (num 0 : F64) 0 := F64.is_num F64.rep_zero
  refine drawn_element h hb hu (stands_contributes h.place hl' fun c st hr hx hy hv => ?_) hej (stored_le e (by norm_num)) ?_ hbox hw0 hh0 hwd hht hvx hvy hsx hsy
  · exact C76_poly_partial h.distinct hr (hx ▸ hz) (hy ▸ hz) (by omega) hg hp hc hup h2
  · intro o ho
    rcases List.mem_append.1 ho with ho | ho
    · rcases List.mem_cons.1 ho with rfl | ho
      · exact hup _ List.mem_cons_self
      · obtain ⟨r, hr, rfl⟩ := List.mem_map.1 ho
        exact hup _ (List.mem_cons_of_mem _ hr)
    · cases closed
      · cases ho
      · rcases List.mem_cons.1 ho with rfl | ho
        · trivial
        · cases ho

end Drawn

end GoSvg

namespace GoSvg

open Spec F64

section Examples

attribute [local instance] asciiEnv
attribute [local instance] dummyLibm

/-- The view box of an icon. -/
def drawRoot : Elem := ⟨"svg".toList, attrsOf [("viewBox", "0 0 24 24"), ("fill", "red")]⟩

/-- Before the element: a definition with a transform, a use of it with an offset, an open group. -/
def drawBody : List Token := elem "defs" [] (elem "g" [("id", "a"), ("transform", "scale(2)")] (elem "line" [("x2", "3")])) ++
  elem "use" [("href", "#a"), ("x", "7"), ("y", "10%")] [] ++ [.start "g".toList (attrsOf [("stroke", "blue")])]

def drawCh : List Elem := [⟨"g".toList, attrsOf [("stroke", "blue")]⟩, drawRoot]

/-- The document with the element in place is read, and its view box is that of the root. -/
theorem draw_parsed (name : String) (attrs : List Attr) (hd : Distinct attrs)
    (h : ((drawBody ++ .start name.toList attrs :: placePost name).all fun t => match t with | .start n _ => n ≠ "svg".toList | _ => true) = true)
    (hp : (match parse (F := F64) 8 .strict ([] ++ .start drawRoot.name drawRoot.attrs :: (drawBody ++ .start name.toList attrs :: placePost name)) .eof with
      | .done (some s) none _ => s.viewBox = iconBox | _ => false) = true) :
    ∃ s : Svg F64, Parsed 8 .strict drawRoot drawCh name.toList attrs [] drawBody (placePost name) s ∧ BoxIs s.viewBox 0 0 24 24 := by
  split at hp
  · rename_i s l hs
    have hv : s.viewBox = iconBox := of_decide_eq_true hp
    exact ⟨s, ⟨⟨by decide, ⟨by decide +kernel, by decide +kernel, .inr (by decide +kernel)⟩, by decide +kernel, by decide +kernel, by decide +kernel,
      noSvg_of h⟩, hd, l, hs⟩, hv ▸ iconBox_is⟩
  · cases hp

theorem draw_balanced {name : String} {attrs : List Attr} (h1 : WellNested ([] ++ .start drawRoot.name drawRoot.attrs :: drawBody ++ [.start name.toList attrs]))
    (h2 : Every TidyTag [] ([] ++ .start drawRoot.name drawRoot.attrs :: drawBody ++ [.start name.toList attrs]))
    (h3 : Every DefsTag [] ([] ++ .start drawRoot.name drawRoot.attrs :: drawBody ++ [.start name.toList attrs])) :
    Balanced ([] ++ .start drawRoot.name drawRoot.attrs :: drawBody ++ [.start name.toList attrs]) := ⟨h1, .inr ⟨h2, h3⟩⟩

theorem is_hundred : Is (num 100 : F64) 100 := by simpa using is_nat 100 (by norm_num)

/-- Some rasterizer. -/
local instance exRx : RxEnv F64 := ⟨fun _ => (⟨0, 0⟩, ⟨0, 0⟩)⟩

set_option maxRecDepth 100000 in
/-- The hypotheses of `C75_path` are met by a path of tenths in an icon of 24 units drawn at 100 pixels; no coordinate is off by more than a tenth of a
pixel. -/
example : ∃ (s : Svg F64) (i : Nat) (pen : List (Event F64)), DrawnWith s [.target (num 0) (num 0) (num 100) (num 100)] i pen ∧
    List.Forall₂ (CallWithin (1 / 10) (1 / 10) (onPicture 0 0 (25 / 6) (25 / 6))) pen (draw tenthCmds) := by
  obtain ⟨s, hs, hbox⟩ := draw_parsed "path" (attrsOf [("d", "M.1 0.2l.3-.7t1 .9t-.1 0z")]) (by decide) (by decide +kernel) (by decide +kernel)
  obtain ⟨i, pen, -, h2, h3⟩ := C75_path hs (draw_balanced (by decide +kernel) (by decide +kernel) (by decide +kernel))
    (by unfold NoTransform; decide +kernel) [] (by simp) tenthCmds tenthTexts tenthWritten ⟨rfl, rfl, rfl, rfl, trivial⟩ 2
    (by
      intro cmd hc r hr
      simp only [tenthCmds, List.mem_cons, List.not_mem_nil, or_false] at hc
      rcases hc with rfl | rfl | rfl | rfl | rfl <;>
        simp only [Cmd.args, flat2, List.flatMap_cons, List.flatMap_nil, List.append_nil, List.cons_append, List.nil_append, List.mem_cons,
          List.not_mem_nil, or_false] at hr <;>
        (try rcases hr with rfl | rfl) <;> (try norm_num [abs_le]))
    (by
      intro o ho
      rw [tenthDraw] at ho
      simp only [List.mem_cons, List.not_mem_nil, or_false] at ho
      rcases ho with rfl | rfl | rfl | rfl | rfl <;> norm_num [UpOp, Up2, abs_le])
    (by rw [tenthDraw]; simp) 5 (by rw [tenthDraw]; norm_num) (by norm_num) (by decide +kernel) hbox (by norm_num) (by norm_num)
    is_hundred is_hundred (by norm_num) (by norm_num) 3 (by norm_num) (by norm_num [abs_le]) (by norm_num [abs_le])
  refine ⟨s, i, pen, h2, h3.imp fun ev o h => ?_⟩
  have pt : ∀ {x y : F64} {r : Pnt ℝ}, CallPt (|((100 : ℚ) : ℝ) / ((24 : ℚ) : ℝ)| * (1 / 64 + ((5 : ℕ) : ℝ) * (((5 : ℕ) : ℝ) + 1) * 2 ^ 2 / 2 ^ 52) + 1 / 64 + 2 ^ (2 + 3) / 2 ^ 47)
      (|((100 : ℚ) : ℝ) / ((24 : ℚ) : ℝ)| * (1 / 64 + ((5 : ℕ) : ℝ) * (((5 : ℕ) : ℝ) + 1) * 2 ^ 2 / 2 ^ 52) + 1 / 64 + 2 ^ (2 + 3) / 2 ^ 47) x y
      (onPicture ((0 : ℚ) : ℝ) ((0 : ℚ) : ℝ) (((100 : ℚ) : ℝ) / ((24 : ℚ) : ℝ)) (((100 : ℚ) : ℝ) / ((24 : ℚ) : ℝ)) r) →
      CallPt (1 / 10) (1 / 10) x y (onPicture 0 0 (25 / 6) (25 / 6) r) := by
    intro x y r ⟨⟨q, i1, i2⟩, ⟨q', j1, j2⟩⟩
    have hb : |((100 : ℚ) : ℝ) / ((24 : ℚ) : ℝ)| * (1 / 64 + ((5 : ℕ) : ℝ) * (((5 : ℕ) : ℝ) + 1) * 2 ^ 2 / 2 ^ 52) + 1 / 64 + 2 ^ (2 + 3) / 2 ^ 47 ≤ 1 / 10 := by
      rw [abs_of_pos (by norm_num)]
      norm_num
    have e : onPicture ((0 : ℚ) : ℝ) ((0 : ℚ) : ℝ) (((100 : ℚ) : ℝ) / ((24 : ℚ) : ℝ)) (((100 : ℚ) : ℝ) / ((24 : ℚ) : ℝ)) r = onPicture 0 0 (25 / 6) (25 / 6) r := by
      norm_num [onPicture]
    rw [e] at i2 j2
    exact ⟨⟨q, i1, i2.trans_le hb⟩, ⟨q', j1, j2.trans_le hb⟩⟩
  cases h with
  | moveTo h => exact .moveTo (pt h)
  | lineTo h => exact .lineTo (pt h)
  | quadTo h h' => exact .quadTo (pt h) (pt h')
  | cubicTo h h' h'' => exact .cubicTo (pt h) (pt h') (pt h'')
  | close => exact .close

theorem sizedLen_of {W : ℝ} {e : Nat} {attrs : List Attr} {name : String} (n : Spelling) (u : String) (f : ℚ) {v r : ℚ} (h1 : n.WF)
    (h2 : Given attrs name (n.text ++ u.toList)) (h3 : n.value = v) (h4 : (u.toList, f) ∈ Spec.units) (h5 : v * f = r)
    (h6 : |(r : ℝ)| ≤ 2 ^ e) : SizedLen W e attrs name (r : ℝ) := by
  have hb : Blank ([] : Str) := by intro c hc; cases hc
  refine ⟨h6, .inl ⟨n, [], [], [], u.toList, f, by simpa using h2, h1, hb, hb, hb, h4, ?_⟩⟩
  rw [h3, ← h5]; push_cast; rfl

theorem sizedLen_percent {W : ℚ} {e : Nat} {attrs : List Attr} {name : String} (n : Spelling) {v r : ℚ} (h1 : n.WF)
    (h2 : Given attrs name (n.text ++ "%".toList)) (h3 : n.value = v) (h4 : |(v : ℝ)| ≤ 1024) (h5 : |(W : ℝ)| ≤ 2 ^ e) (h6 : v / 100 * W = r)
    (h7 : |(r : ℝ)| ≤ 2 ^ e) : SizedLen (W : ℝ) e attrs name (r : ℝ) := by
  have hb : Blank ([] : Str) := by intro c hc; cases hc
  refine ⟨h7, .inr (.inl ⟨n, [], [], [], by simpa using h2, h1, hb, hb, hb, by rw [h3]; exact h4, h5, ?_⟩)⟩
  rw [h3, ← h6]; push_cast; rfl

theorem sizedLen_none {W : ℝ} {e : Nat} {attrs : List Attr} {name : String} (h : ∀ a ∈ attrs, a.name ≠ name.toList) : SizedLen W e attrs name 0 :=
  ⟨by simp, .inr (.inr ⟨not_given h, rfl⟩)⟩

set_option maxRecDepth 100000 in
/-- The hypotheses of `C75_rect` are met by `<rect x="10%" width="1.3mm" height="33.3%"/>`. -/
example : ∃ (s : Svg F64) (i : Nat) (pen : List (Event F64)) (d : ℝ), DrawnWith s [.target (num 0) (num 0) (num 100) (num 100)] i pen ∧
    List.Forall₂ (CallWithin d d (onPicture ((0 : ℚ) : ℝ) ((0 : ℚ) : ℝ) (((100 : ℚ) : ℝ) / ((24 : ℚ) : ℝ)) (((100 : ℚ) : ℝ) / ((24 : ℚ) : ℝ)))) pen
      [.moveTo (((12 / 5 : ℚ) : ℝ), 0), .lineTo (((12 / 5 : ℚ) : ℝ) + ((624 / 127 : ℚ) : ℝ), 0),
        .lineTo (((12 / 5 : ℚ) : ℝ) + ((624 / 127 : ℚ) : ℝ), 0 + ((999 / 125 : ℚ) : ℝ)), .lineTo (((12 / 5 : ℚ) : ℝ), 0 + ((999 / 125 : ℚ) : ℝ)), .close] := by
  obtain ⟨A, hA⟩ : ∃ A, A = attrsOf [("x", "10%"), ("width", "1.3mm"), ("height", "33.3%")] := ⟨_, rfl⟩
  obtain ⟨s, hs, hbox⟩ := draw_parsed "rect" A (by rw [hA]; decide) (by rw [hA]; decide +kernel) (by rw [hA]; decide +kernel)
  obtain ⟨i, pen, -, h2, h3⟩ := C75_rect dummy_exact hs
    (draw_balanced (by rw [hA]; decide +kernel) (by rw [hA]; decide +kernel) (by rw [hA]; decide +kernel))
    (by rw [hA]; unfold NoTransform; decide +kernel) (e := 5) (j := 3) (by norm_num) hbox (by norm_num) (by norm_num)
    is_hundred is_hundred (by norm_num) (by norm_num) (by norm_num [abs_le]) (by norm_num [abs_le])
    (sizedLen_percent ⟨false, "10".toList, none, none⟩ (v := 10) (r := 12 / 5) (by decide +kernel) (by rw [hA]; decide +kernel) (by decide +kernel)
      (by norm_num) (by norm_num) (by norm_num) (by norm_num [abs_le]))
    (sizedLen_none (by rw [hA]; decide))
    (sizedLen_of ⟨false, "1".toList, some "3".toList, none⟩ "mm" (96 / (254 / 10)) (v := 13 / 10) (r := 624 / 127) (by decide +kernel)
      (by rw [hA]; decide +kernel) (by decide +kernel) (by simp [Spec.units]) (by norm_num) (by norm_num [abs_le]))
    (sizedLen_percent ⟨false, "33".toList, some "3".toList, none⟩ (v := 333 / 10) (r := 999 / 125) (by decide +kernel) (by rw [hA]; decide +kernel)
      (by decide +kernel) (by norm_num [abs_le]) (by norm_num) (by norm_num) (by norm_num [abs_le]))
    (not_given (by rw [hA]; decide)) (not_given (by rw [hA]; decide)) (by norm_num [abs_of_pos]) (by norm_num [abs_of_pos]) (by norm_num [abs_le])
  exact ⟨s, i, pen, _, h2, h3⟩

set_option maxRecDepth 100000 in
/-- The hypotheses of `C75_line` are met by `<line x2="1.3mm" y1="33.3%"/>`. -/
example : ∃ (s : Svg F64) (i : Nat) (pen : List (Event F64)) (d : ℝ), DrawnWith s [.target (num 0) (num 0) (num 100) (num 100)] i pen ∧
    List.Forall₂ (CallWithin d d (onPicture ((0 : ℚ) : ℝ) ((0 : ℚ) : ℝ) (((100 : ℚ) : ℝ) / ((24 : ℚ) : ℝ)) (((100 : ℚ) : ℝ) / ((24 : ℚ) : ℝ)))) pen
      [.moveTo (0, ((999 / 125 : ℚ) : ℝ)), .lineTo (((624 / 127 : ℚ) : ℝ), 0)] := by
  obtain ⟨A, hA⟩ : ∃ A, A = attrsOf [("x2", "1.3mm"), ("y1", "33.3%")] := ⟨_, rfl⟩
  obtain ⟨s, hs, hbox⟩ := draw_parsed "line" A (by rw [hA]; decide) (by rw [hA]; decide +kernel) (by rw [hA]; decide +kernel)
  obtain ⟨i, pen, -, h2, h3⟩ := C75_line hs
    (draw_balanced (by rw [hA]; decide +kernel) (by rw [hA]; decide +kernel) (by rw [hA]; decide +kernel))
    (by rw [hA]; unfold NoTransform; decide +kernel) (e := 5) (j := 3) (by norm_num) hbox (by norm_num) (by norm_num)
    is_hundred is_hundred (by norm_num) (by norm_num) (by norm_num [abs_le]) (by norm_num [abs_le])
    (sizedLen_none (by rw [hA]; decide))
    (sizedLen_percent ⟨false, "33".toList, some "3".toList, none⟩ (v := 333 / 10) (r := 999 / 125) (by decide +kernel) (by rw [hA]; decide +kernel)
      (by decide +kernel) (by norm_num [abs_le]) (by norm_num) (by norm_num) (by norm_num [abs_le]))
    (sizedLen_of ⟨false, "1".toList, some "3".toList, none⟩ "mm" (96 / (254 / 10)) (v := 13 / 10) (r := 624 / 127) (by decide +kernel)
      (by rw [hA]; decide +kernel) (by decide +kernel) (by simp [Spec.units]) (by norm_num) (by norm_num [abs_le]))
    (sizedLen_none (by rw [hA]; decide))
  exact ⟨s, i, pen, _, h2, h3⟩

set_option maxRecDepth 100000 in
/-- The hypotheses of `C75_poly_partial` are met by `<polygon points=".5 1 -2.7 3,4 5"/>`. -/
example : ∃ (s : Svg F64) (i : Nat) (pen : List (Event F64)) (d : ℝ), DrawnWith s [.target (num 0) (num 0) (num 100) (num 100)] i pen ∧
    List.Forall₂ (CallWithin d d (onPicture ((0 : ℚ) : ℝ) ((0 : ℚ) : ℝ) (((100 : ℚ) : ℝ) / ((24 : ℚ) : ℝ)) (((100 : ℚ) : ℝ) / ((24 : ℚ) : ℝ)))) pen
      [.moveTo (1 / 2, 1), .lineTo (-27 / 10, 3), .lineTo (4, 5), .close] := by
  obtain ⟨s, hs, hbox⟩ := draw_parsed "polygon" (attrsOf [("points", ".5 1 -2.7 3,4 5")]) (by decide) (by decide +kernel) (by decide +kernel)
  obtain ⟨i, pen, -, h2, h3⟩ := C75_poly_partial (closed := true) hs (draw_balanced (by decide +kernel) (by decide +kernel) (by decide +kernel))
    (by unfold NoTransform; decide +kernel) (e := 5) (j := 3) (by norm_num) hbox (by norm_num) (by norm_num)
    is_hundred is_hundred (by norm_num) (by norm_num) (by norm_num [abs_le]) (by norm_num [abs_le])
    (p := (1 / 2, 1)) (pts := [(-27 / 10, 3), (4, 5)])
    (g := ⟨[dec "" false "" "5", int " " "1", dec " " true "2" "7", int " " "3", int "," "4", int " " "5"], []⟩) (by decide) (by decide +kernel)
    (by
      have v1 : (Spelling.value ⟨false, "".toList, some "5".toList, none⟩) = 1 / 2 := by decide +kernel
      have v2 : (Spelling.value ⟨false, "1".toList, none, none⟩) = 1 := by decide +kernel
      have v3 : (Spelling.value ⟨true, "2".toList, some "7".toList, none⟩) = -27 / 10 := by decide +kernel
      have v4 : (Spelling.value ⟨false, "3".toList, none, none⟩) = 3 := by decide +kernel
      have v5 : (Spelling.value ⟨false, "4".toList, none, none⟩) = 4 := by decide +kernel
      have v6 : (Spelling.value ⟨false, "5".toList, none, none⟩) = 5 := by decide +kernel
      simp only [coords, GroupList.numbers, Group.numbers, dec, int, List.flatMap_cons, List.flatMap_nil, List.append_nil,
        List.cons_append, List.nil_append, List.map_cons, List.map_nil, v1, v2, v3, v4, v5, v6]
      norm_num)
    (by
      intro r hr
      simp only [List.mem_cons, List.not_mem_nil, or_false] at hr
      rcases hr with rfl | rfl | rfl <;> norm_num [Up2, abs_le])
    (by simp)
  exact ⟨s, i, pen, _, h2, h3⟩

end Examples

end GoSvg
