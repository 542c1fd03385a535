import Verif.Lemmas.SignedArc
import Verif.Lemmas.NanArc

/-! C79: arcs whose parameters are out of range (SVG 1.1 F.6.2 and F.6.6). -/

namespace GoSvg

open Spec F64

variable [GoEnv]

/-! ### No ellipse: binary64 -/

section
variable [Libm] [NanLibm]

/-- What the letter does with one parameter set that has no ellipse: nothing is added. -/
theorem flat_arc {k : Char} (hk : k = 'a' ∨ k = 'A') (c : PathCursor F64) (rx ry rot large sweep x y : F64)
    (h : NoCentre rx ry c.placeX c.placeY (if k = 'a' then x +. c.placeX else x) (if k = 'a' then y +. c.placeY else y)) :
    ∃ pts, doLetter k { c with points := [rx, ry, rot, large, sweep, x, y] } =
      (.ok (), { c with points := pts, placeX := c.placeX +. c.curX, placeY := c.placeY +. c.curY, lastKey := k }) := by
  have g : ∀ (r : Bool) (d : PathCursor F64), d.points.length = 7 → doLetter (if r then 'a' else 'A') d =
      (.ok (), { arcLoop (if r then 'a' else 'A') 1 0 d with lastKey := if r then 'a' else 'A' }) := by
    intro r d hd
    unfold doLetter
    rw [SM.bind_run, seg_arc, if_pos (hasSets_flat (n := 0) (by rw [hd])), hd]
    rfl
  have a : ∀ X Y : F64, NoCentre rx ry c.placeX c.placeY X Y →
      ∃ pts, addArcFromA 0 { c with points := [rx, ry, rot, large, sweep, X, Y] } =
        { c with points := pts, placeX := c.placeX +. c.curX, placeY := c.placeY +. c.curY } := by
    intro X Y h
    obtain ⟨e1, e2⟩ := centre_nan h (rot *. GoFloat.piMul 1 /. num 180) (GoFloat.eq sweep (num 0)) (GoFloat.eq large (num 0))
    refine ⟨(addArcFromA 0 { c with points := [rx, ry, rot, large, sweep, X, Y] }).points, ?_⟩
    unfold addArcFromA
    simp only [at_, List.getD_cons_zero, List.getD_cons_succ]
    rw [e1, e2, show (F64.nan : F64) +. c.curX = .nan from add_nan_left _, show (F64.nan : F64) +. c.curY = .nan from add_nan_left _, addArc_nan]
    simp only [List.append_nil]
  rcases hk with rfl | rfl
  · obtain ⟨pts, hp⟩ := a _ _ h
    refine ⟨pts, (g true _ rfl).trans ?_⟩
    change (Res.ok (), { addArcFromA 0 { c with points := [rx, ry, rot, large, sweep, x +. c.placeX, y +. c.placeY] } with lastKey := 'a' }) = _
    rw [show addArcFromA 0 { c with points := [rx, ry, rot, large, sweep, x +. c.placeX, y +. c.placeY] } = _ from hp]
  · obtain ⟨pts, hp⟩ := a _ _ h
    refine ⟨pts, (g false _ rfl).trans ?_⟩
    change (Res.ok (), { addArcFromA 0 { c with points := [rx, ry, rot, large, sweep, x, y] } with lastKey := 'A' }) = _
    rw [show addArcFromA 0 { c with points := [rx, ry, rot, large, sweep, x, y] } = _ from hp]

omit [GoEnv] [NanLibm] in
theorem zn_is {x : F64} (h : Is x 0) : ZN x := by
  obtain ⟨s, m, e, rfl, -, hv⟩ := h
  have : (m : ℚ) = 0 := by
    have h2 : (2 : ℚ) ^ e ≠ 0 := by positivity
    split at hv
    · rw [neg_eq_zero] at hv; exact (mul_eq_zero.1 hv).resolve_right h2
    · exact (mul_eq_zero.1 hv).resolve_right h2
  exact_mod_cast this

omit [GoEnv] [NanLibm] in
theorem is_add_zero {x z : F64} {q : ℚ} (h : Is x q) (hz : Is z 0) : Is (x +. z) q := by
  have := is_add h hz (by rw [add_zero]; exact is_rep h)
  rwa [add_zero] at this

omit [GoEnv] [NanLibm] in
theorem is_zero_add {x z : F64} {q : ℚ} (h : Is x q) (hz : Is z 0) : Is (z +. x) q := by
  have := is_add hz h (by rw [zero_add]; exact is_rep h)
  rwa [zero_add] at this

/-- C79: an arc that ends where it starts is left out, whatever its radii, rotation and flags: the path is as before and the current point has the
same value. Binary64; of the library functions only that they return NaN for NaN. `(px, py)`: the current point after `ts1`. -/
theorem C79_coinciding (ts1 : List Str) (h1 : ∀ t ∈ ts1, Segment t) (c c1 : PathCursor F64) (hc : compilePath ts1.flatten c = (.ok (), c1))
    (hoff : Is c.curX 0 ∧ Is c.curY 0) {px py : ℚ} (hpx : Is c1.placeX px) (hpy : Is c1.placeY py) (k : Char) (hk : k = 'a' ∨ k = 'A')
    (rx ry rot large sweep x y : F64) (hx : Is x (if k = 'a' then 0 else px)) (hy : Is y (if k = 'a' then 0 else py)) (t : Str)
    (ht : Writes k [rx, ry, rot, large, sweep, x, y] t) :
    ∃ c2, compilePath (ts1 ++ [t]).flatten c = (.ok (), c2) ∧ c2.path = c1.path ∧ c2.log = c1.log ∧ Is c2.placeX px ∧ Is c2.placeY py := by
  have hoff1 : c1.curX = c.curX ∧ c1.curY = c.curY := by
    have := (compilePath_pstep ts1.flatten c).1
    rw [hc] at this
    exact ⟨this.curX, this.curY⟩
  have e : ∀ {x p : F64} {q : ℚ}, Is p q → Is x (if k = 'a' then 0 else q) → ZN (sub (if k = 'a' then x +. p else x) p) := by
    intro x p q hp hx
    have : Is (if k = 'a' then x +. p else x) q := by
      split
      · next h => rw [if_pos h] at hx; exact is_zero_add hp hx
      · next h => rwa [if_neg h] at hx
    have h0 := is_sub this hp (by rw [sub_self]; exact ⟨0, 0, by norm_num, by norm_num, by norm_num, by simp⟩)
    rw [sub_self] at h0
    exact zn_is h0
  obtain ⟨pts, hp⟩ := flat_arc hk c1 rx ry rot large sweep x y (.inl ⟨e hpx hx, e hpy hy⟩)
  rw [compile_snoc h1 hc (by rcases hk with rfl | rfl <;> decide) ht, hp]
  exact ⟨_, rfl, rfl, rfl, is_add_zero hpx (by rw [hoff1.1]; exact hoff.1), is_add_zero hpy (by rw [hoff1.2]; exact hoff.2)⟩

/-- SVG takes an arc with a radius of zero for a straight line to its end. The code draws nothing for any such arc and leaves the current point
where it is, so what follows starts at the wrong point. -/
theorem C79_zero_radius_false (ts1 : List Str) (h1 : ∀ t ∈ ts1, Segment t) (c c1 : PathCursor F64)
    (hc : compilePath ts1.flatten c = (.ok (), c1)) (hoff : Is c.curX 0 ∧ Is c.curY 0) {px py : ℚ} (hpx : Is c1.placeX px) (hpy : Is c1.placeY py)
    (k : Char) (hk : k = 'a' ∨ k = 'A') (rx ry rot large sweep x y : F64) (h0 : Is rx 0 ∨ Is ry 0) (t : Str)
    (ht : Writes k [rx, ry, rot, large, sweep, x, y] t) :
    ∃ c2, compilePath (ts1 ++ [t]).flatten c = (.ok (), c2) ∧ c2.path = c1.path ∧ Is c2.placeX px ∧ Is c2.placeY py := by
  have hoff1 : c1.curX = c.curX ∧ c1.curY = c.curY := by
    have := (compilePath_pstep ts1.flatten c).1
    rw [hc] at this
    exact ⟨this.curX, this.curY⟩
  obtain ⟨pts, hp⟩ := flat_arc hk c1 rx ry rot large sweep x y (.inr (h0.imp zn_is zn_is))
  rw [compile_snoc h1 hc (by rcases hk with rfl | rfl <;> decide) ht, hp]
  exact ⟨_, rfl, rfl, is_add_zero hpx (by rw [hoff1.1]; exact hoff.1), is_add_zero hpy (by rw [hoff1.2]; exact hoff.2)⟩

end

/-! ### Negative radii: exact arithmetic -/

/-- What is drawn for radii of any sign but zero. -/
theorem signed_path (ts1 : List Str) (h1 : ∀ t ∈ ts1, Segment t) (c c1 : PathCursor ℝ)
    (hc : compilePath ts1.flatten c = (.ok (), c1)) (hoff : c.curX = 0 ∧ c.curY = 0) (k : Char) (hk : k = 'a' ∨ k = 'A')
    (rx ry rot large sweep x' y' x y : ℝ) (hx : x = if k = 'a' then x' + c1.placeX else x')
    (hy : y = if k = 'a' then y' + c1.placeY else y') (hrx : rx ≠ 0) (hry : ry ≠ 0) (hne : (c1.placeX, c1.placeY) ≠ (x, y))
    (t : Str) (ht : Writes k [rx, ry, rot, large, sweep, x', y'] t) :
    ∃ c2 e η δ n cs, compilePath (ts1 ++ [t]).flatten c = (.ok (), c2) ∧
      IsArc |rx| |ry| (rot * Real.pi / 180) (decide (large ≠ 0)) (if 0 < rx * ry then decide (sweep ≠ 0) else decide (sweep = 0))
        c1.placeX c1.placeY x y e η δ ∧
      Follows e η δ n cs ∧
      c2.path = c1.path ++ cs.map (fun b => .cubicTo (toFixedP b.p1.1 b.p1.2) (toFixedP b.p2.1 b.p2.2) (toFixedP b.p3.1 b.p3.2)) ∧
      (c2.placeX, c2.placeY) = (x, y) := by
  have hoff1 : c1.curX = 0 ∧ c1.curY = 0 := by
    have := (compilePath_pstep ts1.flatten c).1
    rw [hc] at this
    exact ⟨this.curX.trans hoff.1, this.curY.trans hoff.2⟩
  rw [compile_snoc h1 hc (by rcases hk with rfl | rfl <;> decide) ht, arc_letter hk, ← hx, ← hy]
  obtain ⟨e, η, δ, n, cs, f0, f1, f2⟩ := signed_arc hrx hry rot large sweep c1.placeX c1.placeY x y hne
  set ctr := findEllipseCenter rx ry (rot * Real.pi / 180) c1.placeX c1.placeY x y (GoFloat.eq sweep 0) (GoFloat.eq large 0) with hctr
  have f3 : addArcFromA 0 { c1 with points := [rx, ry, rot, large, sweep, x, y] } =
      { c1 with points := [ctr.ra, ctr.rb, rot, large, sweep, x, y], path := c1.path ++ cs.map storeCubic, placeX := x, placeY := y } := by
    unfold addArcFromA
    simp only [at_, List.getD_cons_zero, List.getD_cons_succ, real_mul, real_div, real_piMul, real_num, List.set_cons_zero,
      List.set_cons_succ, real_add, hoff1.1, hoff1.2, add_zero]
    norm_num only [Rat.cast_ofNat, Rat.cast_zero, Rat.cast_one, one_mul]
    rw [← hctr, f2]
  exact ⟨_, _, _, _, n, cs, rfl, f0, f1, by rw [f3]; rfl, by rw [f3]⟩

/-- C79: SVG drops the signs of the radii. So does the code when both are negative: what is drawn is the arc for their absolute values. -/
theorem C79_negative_partial (ts1 : List Str) (h1 : ∀ t ∈ ts1, Segment t) (c c1 : PathCursor ℝ)
    (hc : compilePath ts1.flatten c = (.ok (), c1)) (hoff : c.curX = 0 ∧ c.curY = 0) (k : Char) (hk : k = 'a' ∨ k = 'A')
    (rx ry rot large sweep x' y' x y : ℝ) (hx : x = if k = 'a' then x' + c1.placeX else x')
    (hy : y = if k = 'a' then y' + c1.placeY else y') (hrx : rx < 0) (hry : ry < 0) (hne : (c1.placeX, c1.placeY) ≠ (x, y))
    (t : Str) (ht : Writes k [rx, ry, rot, large, sweep, x', y'] t) :
    ∃ c2 e η δ n cs, compilePath (ts1 ++ [t]).flatten c = (.ok (), c2) ∧
      IsArc (-rx) (-ry) (rot * Real.pi / 180) (decide (large ≠ 0)) (decide (sweep ≠ 0)) c1.placeX c1.placeY x y e η δ ∧
      Follows e η δ n cs ∧
      c2.path = c1.path ++ cs.map (fun b => .cubicTo (toFixedP b.p1.1 b.p1.2) (toFixedP b.p2.1 b.p2.2) (toFixedP b.p3.1 b.p3.2)) ∧
      (c2.placeX, c2.placeY) = (x, y) := by
  have := signed_path ts1 h1 c c1 hc hoff k hk rx ry rot large sweep x' y' x y hx hy hrx.ne hry.ne hne t ht
  rwa [if_pos (mul_pos_of_neg_of_neg hrx hry), abs_of_neg hrx, abs_of_neg hry] at this

/-- With one negative radius the code draws the arc of the other direction: `δ`, the angle traversed, has the sign that the sweep flag rules out. -/
theorem C79_one_negative_false (ts1 : List Str) (h1 : ∀ t ∈ ts1, Segment t) (c c1 : PathCursor ℝ)
    (hc : compilePath ts1.flatten c = (.ok (), c1)) (hoff : c.curX = 0 ∧ c.curY = 0) (k : Char) (hk : k = 'a' ∨ k = 'A')
    (rx ry rot large sweep x' y' x y : ℝ) (hx : x = if k = 'a' then x' + c1.placeX else x')
    (hy : y = if k = 'a' then y' + c1.placeY else y') (hr : rx * ry < 0) (hne : (c1.placeX, c1.placeY) ≠ (x, y))
    (t : Str) (ht : Writes k [rx, ry, rot, large, sweep, x', y'] t) :
    ∃ c2 e η δ n cs, compilePath (ts1 ++ [t]).flatten c = (.ok (), c2) ∧
      IsArc |rx| |ry| (rot * Real.pi / 180) (decide (large ≠ 0)) (decide (sweep = 0)) c1.placeX c1.placeY x y e η δ ∧
      ¬ IsArc |rx| |ry| (rot * Real.pi / 180) (decide (large ≠ 0)) (decide (sweep ≠ 0)) c1.placeX c1.placeY x y e η δ ∧
      Follows e η δ n cs ∧
      c2.path = c1.path ++ cs.map (fun b => .cubicTo (toFixedP b.p1.1 b.p1.2) (toFixedP b.p2.1 b.p2.2) (toFixedP b.p3.1 b.p3.2)) ∧
      (c2.placeX, c2.placeY) = (x, y) := by
  have hrx : rx ≠ 0 := by rintro rfl; simp at hr
  have hry : ry ≠ 0 := by rintro rfl; simp at hr
  obtain ⟨c2, e, η, δ, n, cs, g1, g2, g3⟩ := signed_path ts1 h1 c c1 hc hoff k hk rx ry rot large sweep x' y' x y hx hy hrx hry hne t ht
  rw [if_neg (not_lt.2 hr.le)] at g2
  refine ⟨c2, e, η, δ, n, cs, g1, g2, ?_, g3⟩
  intro h
  have d1 := g2.direction
  have d2 := h.direction
  by_cases hs : sweep = 0
  · simp only [hs, decide_true, if_true] at d1
    simp only [hs, ne_eq, not_true, decide_false, Bool.false_eq_true, if_false] at d2
    linarith
  · simp only [hs, decide_false, Bool.false_eq_true, if_false] at d1
    simp only [ne_eq, hs, not_false_eq_true, decide_true, if_true] at d2
    linarith

end GoSvg

namespace GoSvg

open Spec F64

section Examples

attribute [local instance] asciiEnv

/-- Library functions that return NaN for NaN and a constant otherwise. -/
def nanLibm : Libm where
  sin x := if x = .nan then .nan else roundRat false 0
  cos x := if x = .nan then .nan else roundRat false 1
  tan x := if x = .nan then .nan else roundRat false 0
  atan2 y x := if y = .nan ∨ x = .nan then .nan else roundRat false 0
  piMul q := roundRat false (q * 3.141592653589793)

attribute [local instance] nanLibm

local instance : NanLibm := ⟨rfl, rfl, rfl⟩

theorem flat_seg : ∀ t ∈ ["M3 4".toList], Segment t := by
  intro t ht
  simp only [List.mem_singleton] at ht
  subst ht
  exact ⟨'M', "3 4".toList, rfl, by decide, by decide⟩

/-- A path cursor at the start. -/
def flatStart : PathCursor F64 := (initCursor .strict).pc

theorem flat_move : ∃ c1, compilePath "M3 4".toList flatStart = (.ok (), c1) ∧ c1.placeX = num 3 ∧ c1.placeY = num 4 ∧ c1.path = [.moveTo ⟨192, 256⟩] :=
  ⟨(compilePath "M3 4".toList flatStart).2, Prod.ext (by decide +kernel) rfl, by decide +kernel, by decide +kernel, by decide +kernel⟩

theorem flat_is (n : Nat) (h : n < 2 ^ 53) : Is (num (n : ℚ) : F64) n :=
  is_num ⟨n, 0, h, by norm_num, by norm_num, by simp⟩

theorem flat_writes (k : Char) (l : GroupList) (xs : List Nat) (h2 : l.WF) (h3 : ∀ c ∈ l.last, PathSep c) (h4 : ∀ i ∈ l.items, ∀ c ∈ i.1, PathSep c)
    (h5 : readAll (l.numbers.map Spelling.text) = some (xs.map fun n => (num n : F64)))
    (h6 : (xs.map fun n => (num n : F64)) = (xs.map fun n => (num n : F64)).map (· *. num 1)) :
    Writes k (xs.map fun n => (num n : F64)) (k :: l.text) := ⟨l, _, rfl, h2, h3, h4, h5, h6⟩

/-- `M3 4 A2 5 30 1 0 3 4`: nothing is drawn for the arc. -/
example : ∃ c2, compilePath "M3 4A2 5 30 1 0 3 4".toList flatStart = (.ok (), c2) ∧ c2.path = [.moveTo ⟨192, 256⟩] ∧ Is c2.placeX 3 ∧ Is c2.placeY 4 := by
  obtain ⟨c1, h1, h2, h3, h4⟩ := flat_move
  have hw : Writes 'A' [(num 2 : F64), num 5, num 30, num 1, num 0, num 3, num 4] "A2 5 30 1 0 3 4".toList :=
    flat_writes 'A' ⟨[int "" "2", int " " "5", int " " "30", int " " "1", int " " "0", int " " "3", int " " "4"], []⟩ [2, 5, 30, 1, 0, 3, 4]
      (by decide +kernel) (by decide +kernel) (by decide +kernel) (by decide +kernel) (by decide +kernel)
  obtain ⟨c2, g1, g2, -, g3, g4⟩ := C79_coinciding ["M3 4".toList] flat_seg flatStart c1 h1
    ⟨flat_is 0 (by norm_num), flat_is 0 (by norm_num)⟩ (px := 3) (py := 4) (by rw [h2]; exact flat_is 3 (by norm_num))
    (by rw [h3]; exact flat_is 4 (by norm_num)) 'A' (.inr rfl) _ _ _ _ _ _ _ (flat_is 3 (by norm_num)) (flat_is 4 (by norm_num)) _ hw
  exact ⟨c2, g1, g2.trans h4, g3, g4⟩

/-- `M3 4 a0 5 0 0 0 7 0`: not the line to (10, 4). -/
example : ∃ c2, compilePath "M3 4a0 5 0 0 0 7 0".toList flatStart = (.ok (), c2) ∧ c2.path = [.moveTo ⟨192, 256⟩] ∧ Is c2.placeX 3 ∧ Is c2.placeY 4 := by
  obtain ⟨c1, h1, h2, h3, h4⟩ := flat_move
  have hw : Writes 'a' [(num 0 : F64), num 5, num 0, num 0, num 0, num 7, num 0] "a0 5 0 0 0 7 0".toList :=
    flat_writes 'a' ⟨[int "" "0", int " " "5", int " " "0", int " " "0", int " " "0", int " " "7", int " " "0"], []⟩ [0, 5, 0, 0, 0, 7, 0]
      (by decide +kernel) (by decide +kernel) (by decide +kernel) (by decide +kernel) (by decide +kernel)
  obtain ⟨c2, g1, g2, g3, g4⟩ := C79_zero_radius_false ["M3 4".toList] flat_seg flatStart c1 h1
    ⟨flat_is 0 (by norm_num), flat_is 0 (by norm_num)⟩ (px := 3) (py := 4) (by rw [h2]; exact flat_is 3 (by norm_num))
    (by rw [h3]; exact flat_is 4 (by norm_num)) 'a' (.inl rfl) _ _ _ _ _ _ _ (.inl (flat_is 0 (by norm_num))) _ hw
  exact ⟨c2, g1, g2.trans h4, g3, g4⟩

set_option maxRecDepth 100000 in
theorem neg_writes : Writes 'A' ([-1, -1, 0, 0, 1, 2, 0] : List ℝ) "A-1-1 0 0 1 2 0".toList := by
  have := writes_rat (k := 'A') (l := ⟨[⟨[], ⟨⟨true, "1".toList, none, none⟩, []⟩⟩, ⟨[], ⟨⟨true, "1".toList, none, none⟩, []⟩⟩,
    int " " "0", int " " "0", int " " "1", int " " "2", int " " "0"], []⟩)
    (t := "A-1-1 0 0 1 2 0".toList) [-1, -1, 0, 0, 1, 2, 0] (by decide +kernel)
    (by decide +kernel) (by decide +kernel) (by decide +kernel) (by decide +kernel)
  simpa using this

set_option maxRecDepth 100000 in
theorem neg_one_writes : Writes 'A' ([-1, 1, 0, 0, 1, 2, 0] : List ℝ) "A-1 1 0 0 1 2 0".toList := by
  have := writes_rat (k := 'A') (l := ⟨[⟨[], ⟨⟨true, "1".toList, none, none⟩, []⟩⟩, int " " "1",
    int " " "0", int " " "0", int " " "1", int " " "2", int " " "0"], []⟩)
    (t := "A-1 1 0 0 1 2 0".toList) [-1, 1, 0, 0, 1, 2, 0] (by decide +kernel)
    (by decide +kernel) (by decide +kernel) (by decide +kernel) (by decide +kernel)
  simpa using this

/-- Half a circle with two negative radii, and with one. -/
example : ∃ c2 c2' e e' η η' δ δ',
    compilePath "M0 0A-1-1 0 0 1 2 0".toList (freshReal .strict) = (.ok (), c2) ∧ IsArc 1 1 (0 * Real.pi / 180) false true 0 0 2 0 e η δ ∧
    compilePath "M0 0A-1 1 0 0 1 2 0".toList (freshReal .strict) = (.ok (), c2') ∧ IsArc 1 1 (0 * Real.pi / 180) false false 0 0 2 0 e' η' δ' := by
  obtain ⟨c1, h1, h2, h3⟩ := ex_start
  obtain ⟨c2, e, η, δ, n, cs, a1, a2, -⟩ := C79_negative_partial ["M0 0".toList] ex_seg (freshReal .strict) c1 h1 ⟨rfl, rfl⟩ 'A' (.inr rfl)
    (-1) (-1) 0 0 1 2 0 2 0 rfl rfl (by norm_num) (by norm_num) (by rw [h2, h3]; norm_num) _ neg_writes
  obtain ⟨c2', e', η', δ', n', cs', b1, b2, -, -⟩ := C79_one_negative_false ["M0 0".toList] ex_seg (freshReal .strict) c1 h1 ⟨rfl, rfl⟩ 'A' (.inr rfl)
    (-1) 1 0 0 1 2 0 2 0 rfl rfl (by norm_num) (by rw [h2, h3]; norm_num) _ neg_one_writes
  rw [h2, h3] at a2 b2
  refine ⟨c2, c2', e, e', η, η', δ, δ', a1, ?_, b1, ?_⟩
  · simpa using a2
  · simpa using b2

end Examples

end GoSvg
