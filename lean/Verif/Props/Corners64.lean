import Verif.Lemmas.RoundRect64

/-! C83: the rounded corners of rectangles in binary64. -/

namespace GoSvg

open Spec F64

/-- The attributes of a rectangle give it corners with one radius `r`, of magnitude at most `2^e`: one of the radii is given, as any length, or both are
given by the same text, a number with one of the units. -/
def OneRadius [GoEnv] (vw vh : ℝ) (e : Nat) (attrs : List Attr) (r : ℝ) : Prop :=
  (SizedLen vw e attrs "rx" r ∧ ∀ v, ¬ Given attrs "ry" v) ∨ (SizedLen vh e attrs "ry" r ∧ ∀ v, ¬ Given attrs "rx" v) ∨
  (|r| ≤ 2 ^ e ∧ ∃ (n : Spelling) (w w' w'' u : Str) (f : Rat), Given attrs "rx" (w ++ (n.text ++ w' ++ u) ++ w'') ∧
    Given attrs "ry" (w ++ (n.text ++ w' ++ u) ++ w'') ∧ n.WF ∧ Blank w ∧ Blank w' ∧ Blank w'' ∧ (u, f) ∈ units ∧ r = n.value * f)

namespace F64

variable [GoEnv] [Libm]

/-- The radii that `rectOps` chooses. -/
theorem oneRadius_read {e : Nat} (he : e ≤ 20) {attrs : List Attr} {vb : Bounds F64} {vw vh : ℚ} (hvw : Is vb.w vw) (hvh : Is vb.h vh) {r : ℝ}
    (h : OneRadius vw vh e attrs r) (hr : 1 / 64 ≤ r) :
    ∃ a b ρ : F64, Len vb attrs "rx" .width a ∧ Len vb attrs "ry" .height b ∧ Near (2 ^ e / 2 ^ 45) ρ r ∧
      ∀ fuel cx cy x y w h, GoFloat.eq w (num 0) = false → GoFloat.eq h (num 0) = false →
        rectOps fuel cx cy ⟨x, y, w, h, a, b⟩ = addRoundRect fuel (x +. cx) (y +. cy) (w +. x +. cx) (h +. y +. cy) ρ ρ (num 0 : F64) := by
  have z : GoFloat.eq (num 0 : F64) (num 0) = true := (is_eq_zero (is_num rep_zero)).2 rfl
  have pe24 : (2 : ℝ) ^ e ≤ 2 ^ 20 := pow_le_pow_right₀ (by norm_num) he
  have ne0 : ∀ {a : F64}, Near (2 ^ e / 2 ^ 45) a r → GoFloat.eq a (num 0) = false := by
    intro a ⟨p, i1, i2⟩
    by_contra hc
    rw [Bool.not_eq_false, is_eq_zero i1] at hc
    rw [hc, Rat.cast_zero, zero_sub, abs_neg, abs_of_pos (by linarith)] at i2
    have : (2 : ℝ) ^ e / 2 ^ 45 ≤ 2 ^ 20 / 2 ^ 45 := div_le_div_of_nonneg_right pe24 (by positivity)
    norm_num at this
    linarith
  rcases h with ⟨h1, h2⟩ | ⟨h1, h2⟩ | ⟨hb, n, w, w', w'', u, f, g1, g2, hn, hw, hw', hw'', hu, rfl⟩
  · obtain ⟨a, l, n⟩ := C76_length (by omega) h1 vb true hvw
    refine ⟨a, num 0, a, l, .inr ⟨h2, rfl⟩, n, fun fuel cx cy x y w h hw hh => ?_⟩
    unfold rectOps
    simp [hw, hh, z, ne0 n]
  · obtain ⟨a, l, n⟩ := C76_length (by omega) h1 vb false hvh
    refine ⟨num 0, a, a, .inr ⟨h2, rfl⟩, l, n, fun fuel cx cy x y w h hw hh => ?_⟩
    unfold rectOps
    simp [hw, hh, z, ne0 n]
  · obtain ⟨a, l, n⟩ := unit_near_all (by omega) hn hw hw' hw'' hu hb vb
    refine ⟨a, a, a, .inl ⟨_, g1, l _⟩, .inl ⟨_, g2, l _⟩, n, fun fuel cx cy x y w h hw hh => ?_⟩
    unfold rectOps
    simp [hw, hh, ne0 n]

theorem stored_round (hL : Accurate) (hA : AtanAxes) {fuel : Nat} (hf : 1 ≤ fuel) {attrs : List Attr} (hd : Distinct attrs) {c : Cursor F64}
    {st : PathStyle F64} (hr : Ready c st) (hx : Is c.pc.curX 0) (hy : Is c.pc.curY 0) {e : Nat} (he : e ≤ 20) {vw vh : ℚ} (hvw : Is c.svg.viewBox.w vw)
    (hvh : Is c.svg.viewBox.h vh) {x y w h r : ℝ} (h1 : SizedLen vw e attrs "x" x) (h2 : SizedLen vh e attrs "y" y)
    (h3 : SizedLen vw e attrs "width" w) (h4 : SizedLen vh e attrs "height" h) (h5 : OneRadius vw vh e attrs r) (hb : |x + w| ≤ 2 ^ e ∧ |y + h| ≤ 2 ^ e)
    (r0 : 1 / 64 + 1 / 2 ^ 20 ≤ r) (rw' : 2 * r + 1 / 2 ^ 20 ≤ w) (rh : 2 * r + 1 / 2 ^ 20 ≤ h) :
    ∃ ops, List.Forall₂ (OpWithin (5 / 64)) ops (roundOps x y w h r) ∧ Adds (readStartElement fuel "rect".toList attrs c) c [⟨ops, st⟩] := by
  have pe : (0 : ℝ) < 2 ^ e := by positivity
  have pe24 : (2 : ℝ) ^ e ≤ 2 ^ 20 := pow_le_pow_right₀ (by norm_num) he
  have small : (2 : ℝ) ^ e / 2 ^ 45 ≤ 1 / 2 ^ 25 := (div_le_div_of_nonneg_right pe24 (by positivity)).trans (by norm_num)
  obtain ⟨a1, l1, n1⟩ := C76_length (by omega) h1 c.svg.viewBox true hvw
  obtain ⟨a2, l2, n2⟩ := C76_length (by omega) h2 c.svg.viewBox false hvh
  obtain ⟨a3, l3, n3⟩ := C76_length (by omega) h3 c.svg.viewBox true hvw
  obtain ⟨a4, l4, n4⟩ := C76_length (by omega) h4 c.svg.viewBox false hvh
  obtain ⟨a5, a6, ρ, l5, l6, n5, ho⟩ := oneRadius_read he hvw hvh h5 (by norm_num at r0 ⊢; linarith)
  have ne0 : ∀ {a : F64} {l : ℝ}, Near (2 ^ e / 2 ^ 45) a l → 2 * r + 1 / 2 ^ 20 ≤ l → GoFloat.eq a (num 0) = false := by
    intro a l ⟨p, i1, i2⟩ hl
    by_contra hc
    rw [Bool.not_eq_false, is_eq_zero i1] at hc
    rw [hc, Rat.cast_zero, zero_sub, abs_neg, abs_of_pos (by norm_num at r0 hl ⊢; linarith)] at i2
    norm_num at small r0 hl
    linarith
  have sum : ∀ {a b z : F64} {r s : ℝ}, Near (2 ^ e / 2 ^ 45) a r → Near (2 ^ e / 2 ^ 45) b s → Is z 0 → |s + r| ≤ 2 ^ e →
      Near (1 / 2 ^ 23) (a +. b +. z) (s + r) := by
    intro a b z r s ha hb hz h
    rw [add_comm] at h ⊢
    refine near_add_zero ?_ hz
    have hle := h.trans pe24
    exact (near_add ha hb (E := 21) (by norm_num) (by norm_num at hle small ⊢; linarith)).mono (by norm_num at small ⊢; linarith)
  have f1 : Near (1 / 2 ^ 23) (a1 +. c.pc.curX) x := (near_add_zero n1 hx).mono (small.trans (by norm_num))
  have f2 : Near (1 / 2 ^ 23) (a2 +. c.pc.curY) y := (near_add_zero n2 hy).mono (small.trans (by norm_num))
  obtain ⟨ops, o1, o2⟩ := round_rect_near hL hA hf f1 f2 (sum n3 n1 hx hb.1) (sum n4 n2 hy hb.2) (n5.mono (small.trans (by norm_num))) (h1.1.trans pe24)
    (h2.1.trans pe24) (hb.1.trans pe24) (hb.2.trans pe24) r0 rw' rh
  refine ⟨ops, o2, ?_⟩
  have := rect_adds (fuel := fuel) hd hr ⟨l1, l2, l3, l4, l5, l6⟩ ((ho _ _ _ _ _ _ _ (ne0 n3 rw') (ne0 n4 rh)).trans o1)
  rwa [if_neg] at this
  rintro rfl
  cases o2

/-- C83 in binary64: a rectangle with corners of one radius, less than half the sides, is stored as its outline with round corners, each point less
than 5/64 away. What is missing for the full claim: radii that differ or are limited, for which it is false (C16). -/
theorem C83_stored_partial (hL : Accurate) (hA : AtanAxes) {fuel : Nat} (hf : 1 ≤ fuel) {attrs : List Attr} (hd : Distinct attrs) {c : Cursor F64}
    {st : PathStyle F64} (hr : Ready c st) (hx : Is c.pc.curX 0) (hy : Is c.pc.curY 0) {e : Nat} (he : e ≤ 20) {vw vh : ℚ} (hvw : Is c.svg.viewBox.w vw)
    (hvh : Is c.svg.viewBox.h vh) {x y w h r : ℝ} (h1 : SizedLen vw e attrs "x" x) (h2 : SizedLen vh e attrs "y" y)
    (h3 : SizedLen vw e attrs "width" w) (h4 : SizedLen vh e attrs "height" h) (h5 : OneRadius vw vh e attrs r) (hb : |x + w| ≤ 2 ^ e ∧ |y + h| ≤ 2 ^ e)
    (r0 : 1 / 64 + 1 / 2 ^ 20 ≤ r) (rw' : 2 * r + 1 / 2 ^ 20 ≤ w) (rh : 2 * r + 1 / 2 ^ 20 ≤ h) :
    ∃ gs ops, RoundedRect x y w h r gs ∧ List.Forall₂ (OpWithin (5 / 64)) ops gs ∧ Adds (readStartElement fuel "rect".toList attrs c) c [⟨ops, st⟩] := by
  obtain ⟨ops, o1, o2⟩ := stored_round hL hA hf hd hr hx hy he hvw hvh h1 h2 h3 h4 h5 hb r0 rw' rh
  exact ⟨_, ops, rounded_rect x y w h r, o1, o2⟩

omit [GoEnv] [Libm] in
theorem cornerOps_up {X Y ρ η : ℝ} {e : Nat} (h0 : 0 ≤ ρ) (hX : |X| + 2 * ρ ≤ 2 ^ e) (hY : |Y| + 2 * ρ ≤ 2 ^ e) : ∀ o ∈ cornerOps X Y ρ η, UpOp e o := by
  have k0 : ∀ {Z a : ℝ}, |Z| + 2 * ρ ≤ 2 ^ e → |a| ≤ 1 → |Z + ρ * a| ≤ 2 ^ e := by
    intro Z a hZ ha
    have h1 := abs_add_le Z (ρ * a)
    rw [abs_mul, abs_of_nonneg h0] at h1
    nlinarith
  have k1 : ∀ {Z a b : ℝ}, |Z| + 2 * ρ ≤ 2 ^ e → |a| ≤ 1 → |b| ≤ 1 → |Z + ρ * a + 3 / 32 * (ρ * b)| ≤ 2 ^ e := by
    intro Z a b hZ ha hb
    have h1 := abs_add_le Z (ρ * a)
    have h2 := abs_add_le (Z + ρ * a) (3 / 32 * (ρ * b))
    rw [abs_mul, abs_of_nonneg h0] at h1
    rw [abs_mul, abs_mul, abs_of_nonneg h0, abs_of_pos (by norm_num : (0 : ℝ) < 3 / 32)] at h2
    nlinarith
  have pt : ∀ φ, Up2 e ((Ellipse.mk X Y ρ ρ 0).point φ) := by
    intro φ
    constructor
    · have := k0 hX (Real.abs_cos_le_one φ)
      simpa [Ellipse.point] using this
    · have := k0 hY (Real.abs_sin_le_one φ)
      simpa [Ellipse.point] using this
  intro o ho
  unfold cornerOps at ho
  rcases List.mem_append.1 ho with ho | ho
  · rcases List.mem_cons.1 ho with rfl | ho
    · exact pt _
    · obtain ⟨c, hc, rfl⟩ := List.mem_map.1 ho
      unfold cornerCubics at hc
      obtain ⟨j, -, rfl⟩ := List.mem_map.1 hc
      refine ⟨?_, ?_, pt _⟩
      · generalize η + Real.pi / 10 * (j : ℝ) = φ
        constructor
        · have := k1 hX (Real.abs_cos_le_one φ) (b := -Real.sin φ) (by rw [abs_neg]; exact Real.abs_sin_le_one φ)
          simpa [piece, Ellipse.point, Ellipse.tangent] using this
        · have := k1 hY (Real.abs_sin_le_one φ) (Real.abs_cos_le_one φ)
          simpa [piece, Ellipse.point, Ellipse.tangent] using this
      · generalize hφ : η + Real.pi / 10 * (j : ℝ) + Real.pi / 10 = φ
        simp only [piece, hφ]
        constructor
        · have := k1 hX (Real.abs_cos_le_one φ) (b := Real.sin φ) (Real.abs_sin_le_one φ)
          simpa [Ellipse.point, Ellipse.tangent] using this
        · have := k1 hY (Real.abs_sin_le_one φ) (b := -Real.cos φ) (by rw [abs_neg]; exact Real.abs_cos_le_one φ)
          simpa [Ellipse.point, Ellipse.tangent, sub_eq_add_neg] using this
  · rw [List.mem_singleton] at ho
    subst ho
    exact pt _

omit [GoEnv] [Libm] in
theorem roundOps_up {x y w h r : ℝ} {e : Nat} (h0 : 0 ≤ r) (hx : |x| ≤ 2 ^ e) (hy : |y| ≤ 2 ^ e) (hw : |x + w| ≤ 2 ^ e) (hh : |y + h| ≤ 2 ^ e)
    (w1 : |w| ≤ 2 ^ e) (h1 : |h| ≤ 2 ^ e) (rw' : 2 * r ≤ w) (rh : 2 * r ≤ h) : ∀ o ∈ roundOps x y w h r, UpOp (e + 1) o := by
  have e1 : (2 : ℝ) ^ (e + 1) = 2 ^ e + 2 ^ e := by rw [pow_succ]; ring
  have pe : (0 : ℝ) < 2 ^ e := by positivity
  obtain ⟨x1, x2⟩ := abs_le.1 hx
  obtain ⟨y1, y2⟩ := abs_le.1 hy
  obtain ⟨x3, x4⟩ := abs_le.1 hw
  obtain ⟨y3, y4⟩ := abs_le.1 hh
  have wu := le_of_abs_le w1
  have hu := le_of_abs_le h1
  have B : ∀ {t : ℝ}, -2 ^ e ≤ t → t ≤ 2 ^ e → |t| ≤ 2 ^ (e + 1) := by
    intro t t1 t2
    rw [abs_le, e1]
    constructor <;> linarith
  have C : ∀ {t : ℝ}, -2 ^ e ≤ t → t ≤ 2 ^ e → |t| + 2 * r ≤ 2 ^ (e + 1) := by
    intro t t1 t2
    have := abs_le.2 ⟨t1, t2⟩
    rw [e1]
    linarith
  intro o ho
  simp only [roundOps, List.mem_append, List.mem_cons, List.not_mem_nil, or_false] at ho
  rcases ho with ((((((((rfl | rfl) | ho) | rfl) | ho) | rfl) | ho) | rfl) | ho) | rfl
  · exact ⟨B (by linarith) (by linarith), B y1 y2⟩
  · exact ⟨B (by linarith) (by linarith), B y1 y2⟩
  · exact cornerOps_up h0 (C (by linarith) (by linarith)) (C (by linarith) (by linarith)) o ho
  · exact ⟨B x3 x4, B (by linarith) (by linarith)⟩
  · exact cornerOps_up h0 (C (by linarith) (by linarith)) (C (by linarith) (by linarith)) o ho
  · exact ⟨B (by linarith) (by linarith), B y3 y4⟩
  · exact cornerOps_up h0 (C (by linarith) (by linarith)) (C (by linarith) (by linarith)) o ho
  · exact ⟨B x1 x2, B (by linarith) (by linarith)⟩
  · exact cornerOps_up h0 (C (by linarith) (by linarith)) (C (by linarith) (by linarith)) o ho
  · trivial

end F64

section Documents

variable [GoEnv] [Libm] [RxEnv F64] {fuel : Nat} {m : ErrorMode} {root : Elem} {ch : List Elem} {attrs : List Attr} {lead body post : List Token} {s : Svg F64}

/-- C83 in documents, with transforms, in binary64: the rectangle is drawn as its outline with round corners, moved where its transforms and the target
put it. Partial as `C83_stored_partial`. -/
theorem C83_drawn_partial (hL : Accurate) (hA : AtanAxes) (hfuel : 1 ≤ fuel) (h : Parsed fuel m root ch "rect".toList attrs lead body post s)
    (hb : Balanced (lead ++ .start root.name root.attrs :: body ++ [.start "rect".toList attrs])) {b c n : Nat} {T : P2 → P2}
    (hT : TransformedUpTo b c (⟨"rect".toList, attrs⟩ :: ch) n T) (hq : c + (n + 1) * (b + 2) ≤ 22) {x y w ht : F64} {V : Bounds ℝ} {X Y W H : ℝ}
    (hs : SizedTarget b c s.viewBox x y w ht V X Y W H) (hf : InPlace V X Y W H T) {e : Nat} (hec : e + 1 ≤ c)
    {rx ry rw rh r : ℝ} (h1 : SizedLen V.w e attrs "x" rx) (h2 : SizedLen V.h e attrs "y" ry)
    (h3 : SizedLen V.w e attrs "width" rw) (h4 : SizedLen V.h e attrs "height" rh) (h5 : OneRadius V.w V.h e attrs r)
    (hc : |rx + rw| ≤ 2 ^ e ∧ |ry + rh| ≤ 2 ^ e) (r0 : 1 / 64 + 1 / 2 ^ 20 ≤ r) (hrw : 2 * r + 1 / 2 ^ 20 ≤ rw) (hrh : 2 * r + 1 / 2 ^ 20 ≤ rh) :
    ∃ gs, RoundedRect rx ry rw rh r gs ∧
      ∃ i pen, (∀ k, DrawnBy (F := F64) fuel m (lead ++ .start root.name root.attrs :: body) (.start "rect".toList attrs) k ↔ k = i) ∧
      DrawnWith s [.target x y w ht] i pen ∧
      List.Forall₂ (CallWithin (stretchX (fitted V X Y W H ∘ T) * (5 / 64) + 1 / 64 + (n + 2) * 2 ^ (c + (n + 1) * (b + 2)) / 2 ^ 43)
        (stretchY (fitted V X Y W H ∘ T) * (5 / 64) + 1 / 64 + (n + 2) * 2 ^ (c + (n + 1) * (b + 2)) / 2 ^ 43) (fitted V X Y W H ∘ T)) pen gs := by
  obtain ⟨l, hl'⟩ := h.result
  have hz : Is (num 0 : F64) 0 := F64.is_num F64.rep_zero
  obtain ⟨vx, vy, vw, vh, ⟨-, -, b3, b4⟩, rfl⟩ := id hs.box
  have hle : c ≤ c + (n + 1) * (b + 2) := Nat.le_add_right _ _
  have hle2 : 2 ≤ (n + 1) * (b + 2) := Nat.le_trans (by omega : 2 ≤ 1 * (b + 2)) (Nat.mul_le_mul (by omega) le_rfl)
  refine ⟨_, rounded_rect rx ry rw rh r, C82_drawn_partial hL h hb hT hq hs hf hec ?_ ?_ (stands_contributes h.place hl' fun c st hr hx hy hv => ?_)⟩
  · exact le_trans (by norm_num) (one_le_pow₀ (by norm_num))
  · exact roundOps_up (by norm_num at r0 ⊢; linarith) h1.1 h2.1 hc.1 hc.2 h3.1 h4.1 (by norm_num at hrw ⊢; linarith) (by norm_num at hrh ⊢; linarith)
  · exact stored_round hL hA hfuel h.distinct hr (hx ▸ hz) (hy ▸ hz) (by omega) (hv ▸ b3) (hv ▸ b4) h1 h2 h3 h4 h5 hc r0 hrw hrh

end Documents

open F64

section Examples

attribute [local instance] asciiEnv
attribute [local instance] fineLibm

/-- Some rasterizer. -/
local instance exRx83 : RxEnv F64 := ⟨fun _ => (⟨0, 0⟩, ⟨0, 0⟩)⟩

/-- The library of the examples has the special cases along the axes. -/
theorem fine_axes : AtanAxes where
  up y q s e h hq := by
    obtain ⟨s, m, e, rfl, -, hv⟩ := h
    cases m with
    | zero => simp at hv; linarith
    | succ m =>
      cases s with
      | true => rfl
      | false =>
        simp only [Bool.false_eq_true, if_false] at hv
        have : (0 : ℚ) ≤ ((m + 1 : ℕ) : ℚ) * 2 ^ e := by positivity
        linarith
  down y q s e h hq := by
    obtain ⟨s, m, e, rfl, -, hv⟩ := h
    cases m with
    | zero => simp at hv; linarith
    | succ m =>
      cases s with
      | false => rfl
      | true =>
        simp only [if_true] at hv
        have : (0 : ℚ) ≤ ((m + 1 : ℕ) : ℚ) * 2 ^ e := by positivity
        linarith
  left e x q h hq := by
    obtain ⟨s, m, e, rfl, -, hv⟩ := h
    cases s with
    | true => rfl
    | false =>
      simp only [Bool.false_eq_true, if_false] at hv
      have : (0 : ℚ) ≤ (m : ℚ) * 2 ^ e := by positivity
      linarith

set_option maxRecDepth 100000 in
/-- The hypotheses of `C83_drawn_partial` are met by `<rect x="1" width="50%" height="20" ry="1.5mm"/>` in an icon of 24 units drawn four times as large: every
point is less than four tenths of a pixel away from the outline with round corners. -/
example : ∃ (s : Svg F64) (i : Nat) (pen : List (Event F64)) (gs : List (GOp ℝ)) (d : ℝ), RoundedRect 1 0 12 20 (720 / 127) gs ∧
    DrawnWith s [.target (num 0) (num 0) (num 96) (num 96)] i pen ∧ d < 4 / 10 ∧ List.Forall₂ (CallWithin d d fun p => (4 * p.1, 4 * p.2)) pen gs := by
  have hT : TransformedUpTo 2 6 (⟨"rect".toList, attrsOf [("x", "1"), ("width", "50%"), ("height", "20"), ("ry", "1.5mm")]⟩ :: drawCh) 0 id :=
    .plain (by decide +kernel) (.plain (by decide +kernel) (.plain (by decide +kernel) .root))
  obtain ⟨A, hA⟩ : ∃ A, A = attrsOf [("x", "1"), ("width", "50%"), ("height", "20"), ("ry", "1.5mm")] := ⟨_, rfl⟩
  rw [← hA] at hT
  obtain ⟨s, hs, hbox⟩ := draw_parsed' "rect" A (by rw [hA]; decide) (by rw [hA]; decide +kernel) (by rw [hA]; decide +kernel)
  obtain ⟨b1, b2, b3, b4⟩ := hbox
  have k1 : SizedLen 24 5 A "x" 1 := by
    have := sizedLen_of (W := 24) (e := 5) (attrs := A) (name := "x") ⟨false, "1".toList, none, none⟩ "" 1 (v := 1) (r := 1) (by decide +kernel)
      (by rw [hA]; decide +kernel) (by decide +kernel) (by simp [Spec.units]) (by norm_num) (by norm_num)
    rwa [Rat.cast_one] at this
  have k3 : SizedLen 24 5 A "width" 12 := by
    have := sizedLen_percent (W := 24) (e := 5) (attrs := A) (name := "width") ⟨false, "50".toList, none, none⟩ (v := 50) (r := 12) (by decide +kernel)
      (by rw [hA]; decide +kernel) (by decide +kernel) (by norm_num) (by norm_num) (by norm_num) (by norm_num)
    norm_num only [Rat.cast_ofNat] at this
    exact this
  have k4 : SizedLen 24 5 A "height" 20 := by
    have := sizedLen_of (W := 24) (e := 5) (attrs := A) (name := "height") ⟨false, "20".toList, none, none⟩ "" 1 (v := 20) (r := 20) (by decide +kernel)
      (by rw [hA]; decide +kernel) (by decide +kernel) (by simp [Spec.units]) (by norm_num) (by norm_num)
    norm_num only [Rat.cast_ofNat] at this
    exact this
  have k5 : SizedLen 24 5 A "ry" (720 / 127) := by
    have := sizedLen_of (W := 24) (e := 5) (attrs := A) (name := "ry") ⟨false, "1".toList, some "5".toList, none⟩ "mm" (96 / (254 / 10)) (v := 3 / 2)
      (r := 720 / 127) (by decide +kernel) (by rw [hA]; decide +kernel) (by decide +kernel) (by simp [Spec.units]) (by norm_num) (by norm_num)
    norm_num only [Rat.cast_ofNat, Rat.cast_div] at this
    exact this
  obtain ⟨gs, hg, i, pen, -, h2, h3⟩ := C83_drawn_partial fine_accurate fine_axes (by norm_num) hs
    (draw_balanced (by rw [hA]; decide +kernel) (by rw [hA]; decide +kernel) (by rw [hA]; decide +kernel)) hT (by norm_num)
    (x := num 0) (y := num 0) (w := num 96) (ht := num 96) (V := ⟨0, 0, 24, 24⟩) (X := 0) (Y := 0) (W := 96) (H := 96)
    ⟨⟨0, 0, 24, 24, ⟨b1, b2, b3, b4⟩, by norm_num⟩, ⟨0, 0, 96, 96, ⟨is_num rep_zero, is_num rep_zero, is_96, is_96⟩, by norm_num⟩, by norm_num, 0, by norm_num⟩
    ⟨by norm_num, .inl rfl, .inl rfl, .inl rfl, by simp [fitted, lin]⟩ (e := 5) (by norm_num) k1 (sizedLen_none (by rw [hA]; decide)) k3 k4
    (.inr (.inl ⟨k5, not_given (by rw [hA]; decide)⟩)) (by norm_num) (by norm_num) (by norm_num) (by norm_num)
  have hfun : fitted ⟨0, 0, 24, 24⟩ 0 0 96 96 ∘ id = fun p : P2 => (4 * p.1, 4 * p.2) := by
    funext p
    simp only [fitted, Function.comp, id, Prod.mk.injEq]
    constructor <;> ring
  rw [hfun] at h3
  have hx : stretchX (fun p : P2 => (4 * p.1, 4 * p.2)) = 4 := by norm_num [stretchX, lin]
  have hy : stretchY (fun p : P2 => (4 * p.1, 4 * p.2)) = 4 := by norm_num [stretchY, lin]
  rw [hx, hy] at h3
  exact ⟨s, i, pen, gs, _, hg, h2, by norm_num, h3⟩

end Examples

end GoSvg
