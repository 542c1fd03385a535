import Verif.Props.Float64
import Verif.Props.Shapes
import Verif.Props.Matrix

/-! C03, C20 and C70 in binary64: lengths, the identity, and shapes on a binary grid. -/

namespace GoSvg.Spec

open F64

/-- A length of a shape that is on the grid of step `2^-k`: a number on the grid with a unit that is a whole number of pixels (none,
px, in, pc), or no attribute at all. -/
def GridLen (k : Nat) (attrs : List Attr) (name : String) (r : ℝ) : Prop :=
  Grid k r ∧ ((∃ (n : Spelling) (w w' w'' u : Str) (f : Nat), Given attrs name (w ++ (n.text ++ w' ++ u) ++ w'') ∧ n.WF ∧ Blank w ∧ Blank w' ∧
    Blank w'' ∧ (u, (f : Rat)) ∈ units ∧ Grid k (n.value : ℝ) ∧ r = n.value * f) ∨ ((∀ v, ¬ Given attrs name v) ∧ r = 0))

/-- What the rectangle code needs of the library: the sine and cosine of a zero are exact, and the constant is finite. -/
structure ExactAtZero [Libm] : Prop where
  cos : ∀ z, Is z 0 → Is (Libm.cos z) 1
  sin : ∀ z, Is z 0 → Is (Libm.sin z) 0
  deg : ∃ q, Is (Libm.piMul (1 / 180)) q

end GoSvg.Spec

namespace GoSvg.F64

open Spec

theorem is_div {x y : F64} {p q : ℚ} (hx : Is x p) (hy : Is y q) (hq : q ≠ 0) (h : Rep (p / q)) : Is (div x y) (p / q) := by
  have h1 := is_val hx
  have h2 := is_val hy
  have hz : y.isZero = false := by
    obtain ⟨s, m, e, rfl, -, he⟩ := hy
    by_contra hc
    have hm : m = 0 := by simpa [isZero] using hc
    subst hm
    apply hq
    rw [← he]; simp
  obtain ⟨s, m, e, rfl, -⟩ := hx
  obtain ⟨t, n, f, rfl, -⟩ := hy
  show Is (if _ then _ else _) _
  rw [hz, if_neg (by simp), h1, h2]
  exact roundRat_exact _ h

theorem rep_one : Rep 1 := by simpa using rep_nat (n := 1) (by norm_num)

/-- An integer is converted to itself. -/
theorem toI32_is [Libm] {x : F64} {n : ℤ} (h : Is x n) (h1 : -2 ^ 31 ≤ n) (h2 : n < 2 ^ 31) : GoFloat.toI32 x = n := by
  have ht : x.trunc = n := by
    unfold trunc
    rw [is_val h]
    simp
  obtain ⟨s, m, e, rfl, -⟩ := h
  show (if _ then _ else _) = _
  rw [ht, if_pos ⟨h1, h2⟩]

section

variable [Libm]

theorem is_ofInt {n : ℤ} (h : |n| < 2 ^ 53) : Is (GoFloat.ofInt n : F64) n :=
  roundRat_exact _ (by simpa using rep_grid (k := 0) (n := n) (by norm_num) h)

/-- The entries are those of the identity; zeros may have either sign. -/
structure IsId (m : Matrix2D F64) : Prop where
  a : Is m.a 1
  b : Is m.b 0
  c : Is m.c 0
  d : Is m.d 1
  e : Is m.e 0
  f : Is m.f 0

theorem is_mul' {x y : F64} {p q r : ℚ} (hx : Is x p) (hy : Is y q) (he : p * q = r) (h : Rep r) : Is (x *. y) r := by
  subst he; exact is_mul hx hy h

theorem is_add' {x y : F64} {p q r : ℚ} (hx : Is x p) (hy : Is y q) (he : p + q = r) (h : Rep r) : Is (x +. y) r := by
  subst he; exact is_add hx hy h

theorem isId_identity : IsId (Matrix2D.identity : Matrix2D F64) :=
  ⟨is_num rep_one, is_num rep_zero, is_num rep_zero, is_num rep_one, is_num rep_zero, is_num rep_zero⟩

theorem tFixed_id {m : Matrix2D F64} (hm : IsId m) (p : Pt) (hx : -2 ^ 31 ≤ p.x ∧ p.x < 2 ^ 31) (hy : -2 ^ 31 ≤ p.y ∧ p.y < 2 ^ 31) :
    m.tFixed p = p := by
  have b1 : |p.x| < 2 ^ 53 := by rw [abs_lt]; constructor <;> omega
  have b2 : |p.y| < 2 ^ 53 := by rw [abs_lt]; constructor <;> omega
  have i1 := is_ofInt b1
  have i2 := is_ofInt b2
  have r1 := is_rep i1
  have r2 := is_rep i2
  have h64 : Is (num 64 : F64) (64 : ℚ) := is_num (by simpa using rep_nat (n := 64) (by norm_num))
  cases p with
  | mk x y =>
    unfold Matrix2D.tFixed
    congr 1
    · apply toI32_is _ hx.1 hx.2
      exact is_add' (is_add' (is_mul' i1 hm.a (mul_one _) r1) (is_mul' i2 hm.c (mul_zero _) rep_zero) (add_zero _) r1)
        (is_mul' hm.e h64 (zero_mul _) rep_zero) (add_zero _) r1
    · apply toI32_is _ hy.1 hy.2
      exact is_add' (is_add' (is_mul' i1 hm.b (mul_zero _) rep_zero) (is_mul' i2 hm.d (mul_one _) r2) (zero_add _) r2)
        (is_mul' hm.f h64 (zero_mul _) rep_zero) (add_zero _) r2

theorem e_of_is {k : Nat} {x : F64} {r : ℝ} (h : E k x r) {z : F64} (hz : Is z 0) : E k (x +. z) r := by
  obtain ⟨n, hn, h1, rfl⟩ := h
  exact ⟨n, hn, is_add' h1 hz (add_zero _) (is_rep h1), rfl⟩

theorem toFix_e0 {k : Nat} {x : F64} {r : ℝ} (h : E k x r) : toFix x = toFix r := by
  obtain ⟨n, hn, h1, rfl⟩ := h
  have hlt : |(n : ℚ) / 2 ^ k| < 2 ^ 53 := by
    rw [abs_div, abs_of_pos (by positivity : (0 : ℚ) < 2 ^ k), div_lt_iff₀ (by positivity), ← Int.cast_abs]
    have h3 : ((|n| : ℤ) : ℚ) < 2 ^ 53 := by exact_mod_cast hn.trans_lt (by norm_num)
    have h4 : (1 : ℚ) ≤ 2 ^ k := one_le_pow₀ (by norm_num)
    nlinarith
  rw [toFix_is h1 hlt]
  congr 1
  push_cast; rfl

/-- The middle of two grid numbers is finite. -/
theorem mid_is {k : Nat} (hk : k ≤ 1073) {x y : F64} {r s : ℝ} (hx : E k x r) (hy : E k y s) : ∃ q, Is ((x +. y) /. num 2) q := by
  obtain ⟨n, hn, h1, -⟩ := hx
  obtain ⟨m, hm, h2, -⟩ := hy
  have hb : |n + m| < 2 ^ 53 := by
    have := abs_add_le n m
    have e : (2 : ℤ) ^ 53 = 4 * 2 ^ 51 := by norm_num
    have e0 : (0 : ℤ) < 2 ^ 51 := by norm_num
    omega
  have h3 : Is (x +. y) (((n + m : ℤ) : ℚ) / 2 ^ k) :=
    is_add' h1 h2 (by push_cast; ring) (rep_grid (by omega) hb)
  have htwo : Is (num 2 : F64) (2 : ℚ) := is_num (by simpa using rep_nat (n := 2) (by norm_num))
  refine ⟨_, is_div h3 htwo (by norm_num) ?_⟩
  have := rep_grid (k := k + 1) (by omega) hb
  rwa [pow_succ, ← div_div] at this

/-- Turning by a zero angle about a finite centre is the identity. -/
theorem isId_turn (hL : ExactAtZero) {cx cy z : F64} {p q : ℚ} (hx : Is cx p) (hy : Is cy q) (hz : Is z 0) :
    IsId (((Matrix2D.identity.translate cx cy).rotate z).translate (GoFloat.neg cx) (GoFloat.neg cy)) := by
  have o : Is (num 1 : F64) 1 := is_num rep_one
  have z0 : Is (num 0 : F64) 0 := is_num rep_zero
  have c := hL.cos z hz
  have s := hL.sin z hz
  have ns : Is (GoFloat.neg (Libm.sin z)) 0 := by
    have := is_neg s
    rw [neg_zero] at this
    exact this
  have ex := is_add' z0 hx (zero_add _) (is_rep hx)
  have ey := is_add' z0 hy (zero_add _) (is_rep hy)
  constructor
  · exact is_add' (is_mul' o c (one_mul _) rep_one) (is_mul' z0 s (zero_mul _) rep_zero) (add_zero _) rep_one
  · exact is_add' (is_mul' z0 c (zero_mul _) rep_zero) (is_mul' o s (one_mul _) rep_zero) (add_zero _) rep_zero
  · exact is_add' (is_mul' o ns (one_mul _) rep_zero) (is_mul' z0 c (zero_mul _) rep_zero) (add_zero _) rep_zero
  · exact is_add' (is_mul' z0 ns (zero_mul _) rep_zero) (is_mul' o c (one_mul _) rep_one) (zero_add _) rep_one
  · exact is_add' (is_add' (is_add' (is_mul' o z0 (one_mul _) rep_zero) (is_mul' z0 z0 (zero_mul _) rep_zero) (add_zero _) rep_zero)
      (is_mul' ex c (mul_one _) (is_rep hx)) (zero_add _) (is_rep hx)) (is_neg hx) (add_neg_cancel _) rep_zero
  · exact is_add' (is_add' (is_add' (is_mul' z0 z0 (zero_mul _) rep_zero) (is_mul' o z0 (one_mul _) rep_zero) (add_zero _) rep_zero)
      (is_mul' ey c (mul_one _) (is_rep hy)) (zero_add _) (is_rep hy)) (is_neg hy) (add_neg_cancel _) rep_zero

theorem e_eq_zero {k : Nat} {x : F64} {r : ℝ} (h : E k x r) : GoFloat.eq x (num 0) = true ↔ r = 0 := by
  obtain ⟨n, -, h1, rfl⟩ := h
  have h0 : Is (num 0 : F64) 0 := is_num rep_zero
  have v1 := is_val h1
  have v0 := is_val h0
  obtain ⟨s, m, e, rfl, -⟩ := h1
  obtain ⟨t, m', e', h0, -⟩ := h0
  rw [h0] at v0 ⊢
  show decide _ = true ↔ _
  rw [decide_eq_true_iff, v1, v0]
  have hp : (2 : ℚ) ^ k ≠ 0 := by positivity
  have hpR : (2 : ℝ) ^ k ≠ 0 := by positivity
  simp

theorem e_le_zero {k : Nat} {x : F64} {r : ℝ} (h : E k x r) : GoFloat.le x (num 0) = true ↔ r ≤ 0 := by
  have he := e_eq_zero h
  obtain ⟨n, -, h1, rfl⟩ := h
  have h0 : Is (num 0 : F64) 0 := is_num rep_zero
  have v1 := is_val h1
  have v0 := is_val h0
  have hl : F64.lt x (num 0) = true ↔ ((n : ℝ) / 2 ^ k) < 0 := by
    obtain ⟨s, m, e, rfl, -⟩ := h1
    obtain ⟨t, m', e', h0, -⟩ := h0
    rw [h0] at v0 ⊢
    show decide _ = true ↔ _
    rw [decide_eq_true_iff, v1, v0]
    have : (((n : ℚ) / 2 ^ k : ℚ) : ℝ) = (n : ℝ) / 2 ^ k := by push_cast; rfl
    rw [← this]
    exact_mod_cast Iff.rfl
  show (F64.lt x (num 0) || F64.eq x (num 0)) = true ↔ _
  rw [Bool.or_eq_true, hl, show F64.eq x (num 0) = true ↔ _ from he, le_iff_lt_or_eq]

variable [GoEnv]

/-- A length on the grid is read without rounding error. -/
theorem gridLen_read {k : Nat} (hk : k ≤ 1074) {attrs : List Attr} {name : String} {r : ℝ} (h : GridLen k attrs name r)
    (vb : Bounds F64) (ref : PercRef) : ∃ x, Len vb attrs name ref x ∧ E k x r := by
  obtain ⟨⟨z, hz, hzr⟩, h⟩ := h
  rcases h with ⟨n, w, w', w'', u, f, hg, hn, hw, hw', hw'', hu, ⟨y, hy, hyr⟩, hr⟩ | ⟨h1, h2⟩
  · have hv : n.value = (y : ℚ) / 2 ^ k := by
      have : (n.value : ℝ) = (((y : ℚ) / 2 ^ k : ℚ) : ℝ) := by rw [hyr]; push_cast; rfl
      exact_mod_cast this
    have hq : n.value * f = (z : ℚ) / 2 ^ k := by
      have : ((n.value * f : ℚ) : ℝ) = (((z : ℚ) / 2 ^ k : ℚ) : ℝ) := by push_cast; rw [← hr, hzr]
      exact_mod_cast this
    obtain ⟨x, hx, hI⟩ := parse_exact hn (by rw [hv]; exact rep_grid hk (hy.trans_lt (by norm_num)))
    have hf : Rep (f : ℚ) := by
      apply rep_nat
      have : (f : ℚ) ∈ Spec.units.map (·.2) := List.mem_map.2 ⟨_, hu, rfl⟩
      simp only [Spec.units, List.map_cons, List.map_nil, List.mem_cons, List.not_mem_nil, or_false] at this
      have hle : (f : ℚ) ≤ 96 := by rcases this with h | h | h | h | h | h | h | h <;> rw [h] <;> norm_num
      have : f ≤ 96 := by exact_mod_cast hle
      omega
    refine ⟨x *. num (f : ℚ), .inl ⟨_, hg, ((C03_units n hn hu hw hw' hw'' vb ref).1 x hx).2⟩, z, hz, ?_, hzr⟩
    exact is_mul' hI (is_num hf) hq (rep_grid hk (hz.trans_lt (by norm_num)))
  · subst h2
    exact ⟨num 0, .inr ⟨h1, rfl⟩, e_zero k⟩

end

end GoSvg.F64

namespace GoSvg

open Spec F64

variable [Libm] [GoEnv]

/-- C03 in binary64: a length whose unit is a whole number of pixels is read without rounding error when number and length fit. -/
theorem C03_float64 (k : Nat) (hk : k ≤ 1074) (n : Spelling) (hn : n.WF) {u : Str} {f : Nat} (hu : (u, (f : Rat)) ∈ Spec.units)
    {w w' w'' : Str} (hw : Blank w) (hw' : Blank w') (hw'' : Blank w'') (hg : Grid k (n.value : ℝ)) (hg' : Grid k (n.value * f : ℝ))
    (vb : Bounds F64) (ref : PercRef) :
    ∃ x : F64, Is x (n.value * f) ∧ parseBasicFloat (w ++ (n.text ++ w' ++ u) ++ w'') = .ok x ∧
      resolveUnit vb (w ++ (n.text ++ w' ++ u) ++ w'') ref = .ok x := by
  obtain ⟨y, hy, hyr⟩ := hg
  have hv : n.value = (y : ℚ) / 2 ^ k := by
    have : (n.value : ℝ) = (((y : ℚ) / 2 ^ k : ℚ) : ℝ) := by rw [hyr]; push_cast; rfl
    exact_mod_cast this
  obtain ⟨x, hx, -⟩ := parse_exact hn (by rw [hv]; exact rep_grid hk (hy.trans_lt (by norm_num)))
  obtain ⟨h1, h2⟩ := (C03_units n hn hu hw hw' hw'' vb ref).1 x hx
  refine ⟨_, ?_, h1, h2⟩
  obtain ⟨x', hl, z, hz, hI, hr⟩ := gridLen_read (attrs := [⟨"x".toList, w ++ (n.text ++ w' ++ u) ++ w''⟩]) (name := "x") hk
    (r := n.value * f) ⟨hg', .inl ⟨n, w, w', w'', u, f, List.mem_singleton.2 rfl, hn, hw, hw', hw'', hu, ⟨y, hy, hyr⟩, rfl⟩⟩ vb ref
  rcases hl with ⟨v, hg, hv'⟩ | ⟨hno, -⟩
  · have : v = w ++ (n.text ++ w' ++ u) ++ w'' := by
      have := List.mem_singleton.1 hg
      exact congrArg Attr.value this
    rw [this, h2] at hv'
    cases hv'
    have e : n.value * f = (z : ℚ) / 2 ^ k := by
      have : ((n.value * f : ℚ) : ℝ) = (((z : ℚ) / 2 ^ k : ℚ) : ℝ) := by push_cast; rw [hr]
      exact_mod_cast this
    rw [e]; exact hI
  · exact absurd (List.mem_singleton.2 rfl) (hno _)

omit [GoEnv] in
/-- C20 in binary64, fixed point: Identity keeps every 26.6 point. -/
theorem C20_float64_fixed (p : Pt) (hx : -2 ^ 31 ≤ p.x ∧ p.x < 2 ^ 31) (hy : -2 ^ 31 ≤ p.y ∧ p.y < 2 ^ 31) :
    (Matrix2D.identity : Matrix2D F64).tFixed p = p := tFixed_id isId_identity p hx hy

omit [GoEnv] in
/-- C20 in binary64: Identity keeps the value of every finite point. -/
theorem C20_float64 (x y : F64) (p q : ℚ) (hx : Is x p) (hy : Is y q) :
    Is ((Matrix2D.identity : Matrix2D F64).transform x y).1 p ∧ Is ((Matrix2D.identity : Matrix2D F64).transform x y).2 q := by
  have o : Is (num 1 : F64) 1 := is_num rep_one
  have z : Is (num 0 : F64) 0 := is_num rep_zero
  exact ⟨is_add' (is_add' (is_mul' hx o (mul_one _) (is_rep hx)) (is_mul' hy z (mul_zero _) rep_zero) (add_zero _) (is_rep hx)) z
      (add_zero _) (is_rep hx),
    is_add' (is_add' (is_mul' hx z (mul_zero _) rep_zero) (is_mul' hy o (mul_one _) (is_rep hy)) (zero_add _) (is_rep hy)) z
      (add_zero _) (is_rep hy)⟩

/-- C70: a line with coordinates on a binary grid is stored as exact arithmetic stores it. -/
theorem C70_line {fuel : Nat} {attrs : List Attr} (hd : Distinct attrs) {c : Cursor F64} {st : PathStyle F64} (hr : Ready c st)
    (hx : Is c.pc.curX 0) (hy : Is c.pc.curY 0) {k : Nat} (hk : k ≤ 1074) {x1 y1 x2 y2 : ℝ} (h1 : GridLen k attrs "x1" x1)
    (h2 : GridLen k attrs "y1" y1) (h3 : GridLen k attrs "x2" x2) (h4 : GridLen k attrs "y2" y2) :
    Adds (readStartElement fuel "line".toList attrs c) c [⟨[.moveTo (toFixedP x1 y1), .lineTo (toFixedP x2 y2)], st⟩] := by
  obtain ⟨a1, l1, e1⟩ := gridLen_read hk h1 c.svg.viewBox .width
  obtain ⟨a2, l2, e2⟩ := gridLen_read hk h2 c.svg.viewBox .height
  obtain ⟨a3, l3, e3⟩ := gridLen_read hk h3 c.svg.viewBox .width
  obtain ⟨a4, l4, e4⟩ := gridLen_read hk h4 c.svg.viewBox .height
  have := C17_line (fuel := fuel) hd hr l1 l2 l3 l4
  simp only [toFixedP] at this ⊢
  rwa [toFix_e0 (e_of_is e1 hx), toFix_e0 (e_of_is e2 hy), toFix_e0 (e_of_is e3 hx), toFix_e0 (e_of_is e4 hy)] at this

omit [Libm] [GoEnv] in
theorem forall₂_coords {k : Nat} : ∀ {vs : List F64} {ps : List (ℝ × ℝ)}, List.Forall₂ (E k) vs (coords ps) →
    ∃ qs : List (F64 × F64), vs = coords qs ∧ List.Forall₂ (fun q p => E k q.1 p.1 ∧ E k q.2 p.2) qs ps
  | _, [], .nil => ⟨[], rfl, .nil⟩
  | _, p :: ps, h => by
    cases h with
    | cons h1 h =>
      cases h with
      | cons h2 h =>
        obtain ⟨qs, e, hq⟩ := forall₂_coords h
        exact ⟨(_, _) :: qs, by rw [e]; rfl, .cons ⟨h1, h2⟩ hq⟩

/-- C70: a polyline or polygon of three or more points on a binary grid is stored as exact arithmetic stores it. -/
theorem C70_poly_partial {fuel : Nat} {closed : Bool} {attrs : List Attr} (hd : Distinct attrs) {c : Cursor F64} {st : PathStyle F64}
    (hr : Ready c st) (hx : Is c.pc.curX 0) (hy : Is c.pc.curY 0) {k : Nat} (hk : k ≤ 1074) {p : ℝ × ℝ} {pts : List (ℝ × ℝ)}
    {l : GroupList} (hl : l.WF) (hv : Given attrs "points" l.text) (hc : l.numbers.map (fun n => (n.value : ℝ)) = coords (p :: pts))
    (hg : ∀ r ∈ coords (p :: pts), Grid k r) (h2 : 2 ≤ pts.length) :
    Adds (readStartElement fuel (if closed then "polygon" else "polyline").toList attrs c) c
      [⟨.moveTo (toFixedP p.1 p.2) :: pts.map (fun q => .lineTo (toFixedP q.1 q.2)) ++ (if closed then [.close] else []), st⟩] := by
  obtain ⟨vs, h1, hE⟩ := readAll_grid hk l.numbers (groupList_numbers_wf hl) (by
    intro n hn
    exact hg _ (hc ▸ List.mem_map.2 ⟨n, hn, rfl⟩))
  rw [hc] at hE
  obtain ⟨qs, e, hq⟩ := forall₂_coords hE
  cases hq with
  | @cons q _ qs _ hq0 hqs =>
    have hlen : qs.length = pts.length := hqs.length_eq
    have := C17_poly_partial (fuel := fuel) (closed := closed) hd hr (p := q) (pts := qs) hv ⟨l, vs, rfl, hl, h1, e.symm⟩ (by omega)
    have e0 : toFixedP (q.1 +. c.pc.curX) (q.2 +. c.pc.curY) = toFixedP p.1 p.2 := by
      simp only [toFixedP, toFix_e0 (e_of_is hq0.1 hx), toFix_e0 (e_of_is hq0.2 hy)]
    have e1 : qs.map (fun q => Op.lineTo (toFixedP (q.1 +. c.pc.curX) (q.2 +. c.pc.curY))) = pts.map (fun q => .lineTo (toFixedP q.1 q.2)) := by
      clear e this hlen h2 hg hc hE
      induction hqs with
      | nil => rfl
      | cons h _ ih =>
        rw [List.map_cons, List.map_cons, ih]
        simp only [toFixedP, toFix_e0 (e_of_is h.1 hx), toFix_e0 (e_of_is h.2 hy)]
    rwa [e0, e1] at this

/-- C70: a rectangle with square corners on a binary grid is stored as exact arithmetic stores it. -/
theorem C70_rect (hL : ExactAtZero) {fuel : Nat} {attrs : List Attr} (hd : Distinct attrs) {c : Cursor F64} {st : PathStyle F64}
    (hr : Ready c st) (hx : Is c.pc.curX 0) (hy : Is c.pc.curY 0) {k : Nat} (hk : k ≤ 1073) {x y w h rx ry : ℝ}
    (h1 : GridLen k attrs "x" x) (h2 : GridLen k attrs "y" y) (h3 : GridLen k attrs "width" w) (h4 : GridLen k attrs "height" h)
    (h5 : GridLen k attrs "rx" rx) (h6 : GridLen k attrs "ry" ry) (hw : w ≠ 0) (hh : h ≠ 0) (h0 : rx ≤ 0 ∧ ry ≤ 0)
    (hb : |x + w| ≤ 2 ^ 51 / 2 ^ k ∧ |y + h| ≤ 2 ^ 51 / 2 ^ k) :
    Adds (readStartElement fuel "rect".toList attrs c) c
      [⟨[.moveTo (toFixedP x y), .lineTo (toFixedP (x + w) y), .lineTo (toFixedP (x + w) (y + h)), .lineTo (toFixedP x (y + h)), .close],
        st⟩] := by
  have hk' : k ≤ 1074 := by omega
  obtain ⟨a1, l1, e1⟩ := gridLen_read hk' h1 c.svg.viewBox .width
  obtain ⟨a2, l2, e2⟩ := gridLen_read hk' h2 c.svg.viewBox .height
  obtain ⟨a3, l3, e3⟩ := gridLen_read hk' h3 c.svg.viewBox .width
  obtain ⟨a4, l4, e4⟩ := gridLen_read hk' h4 c.svg.viewBox .height
  obtain ⟨a5, l5, e5⟩ := gridLen_read hk' h5 c.svg.viewBox .width
  obtain ⟨a6, l6, e6⟩ := gridLen_read hk' h6 c.svg.viewBox .height
  have f1 := e_of_is e1 hx
  have f2 := e_of_is e2 hy
  have f3 : E k (a3 +. a1 +. c.pc.curX) (x + w) := by
    rw [add_comm x w] at hb ⊢
    exact e_of_is (e_add hk' e3 e1 hb.1) hx
  have f4 : E k (a4 +. a2 +. c.pc.curY) (y + h) := by
    rw [add_comm y h] at hb ⊢
    exact e_of_is (e_add hk' e4 e2 hb.2) hy
  obtain ⟨p, hp⟩ := mid_is hk f1 f3
  obtain ⟨q, hq⟩ := mid_is hk f2 f4
  obtain ⟨g, hg⟩ := hL.deg
  have hz : Is ((num 0 : F64) *. GoFloat.piMul (1 / 180)) 0 := is_mul' (is_num rep_zero) hg (zero_mul _) rep_zero
  have hI := isId_turn hL hp hq hz
  have ht : ∀ {u v : F64} {r s : ℝ}, E k u r → E k v s →
      ((Matrix2D.identity.translate ((a1 +. c.pc.curX +. (a3 +. a1 +. c.pc.curX)) /. num 2)
        ((a2 +. c.pc.curY +. (a4 +. a2 +. c.pc.curY)) /. num 2)).rotate ((num 0 : F64) *. GoFloat.piMul (1 / 180)) |>.translate
        (GoFloat.neg ((a1 +. c.pc.curX +. (a3 +. a1 +. c.pc.curX)) /. num 2))
        (GoFloat.neg ((a2 +. c.pc.curY +. (a4 +. a2 +. c.pc.curY)) /. num 2))).tFixed (toFixedP u v) = toFixedP r s := by
    intro u v r s hu hv
    have : toFixedP u v = toFixedP r s := by simp only [toFixedP, toFix_e0 hu, toFix_e0 hv]
    rw [this]
    exact tFixed_id hI _ (toFix_range r) (toFix_range s)
  have ho : rectOps fuel c.pc.curX c.pc.curY ⟨a1, a2, a3, a4, a5, a6⟩ =
      some [.moveTo (toFixedP x y), .lineTo (toFixedP (x + w) y), .lineTo (toFixedP (x + w) (y + h)), .lineTo (toFixedP x (y + h)), .close] := by
    unfold rectOps
    rw [if_neg (by
      rw [Bool.or_eq_true, not_or]
      exact ⟨fun hc => hw ((e_eq_zero e3).1 hc), fun hc => hh ((e_eq_zero e4).1 hc)⟩)]
    unfold addRoundRect
    dsimp only
    rw [if_pos]
    · unfold addRect
      dsimp only
      rw [ht f1 f2, ht f3 f2, ht f3 f4, ht f1 f4]
    · rw [Bool.or_eq_true]
      have l5 := (e_le_zero e5).2 h0.1
      have l6 := (e_le_zero e6).2 h0.2
      right
      split
      · exact l5
      · exact l6
  simpa using rect_adds hd hr ⟨l1, l2, l3, l4, l5, l6⟩ ho

end GoSvg

namespace GoSvg

open Spec F64

section Examples

attribute [local instance] asciiEnv

attribute [local instance] dummyLibm

set_option maxRecDepth 100000 in
/-- C70 fails for centimetres: 12.7cm are 480 pixels, but 479 63/64 are stored. -/
theorem C70_units_false :
    pathsOf .strict (elem "svg" [] (elem "line" [("x1", "12.7cm"), ("x2", "480px")])) = some [[.moveTo ⟨30719, 0⟩, .lineTo ⟨30720, 0⟩]] ∧
    (127 / 10 : ℚ) * (96 / (254 / 100)) = 480 := by
  refine ⟨by decide +kernel, by norm_num⟩

theorem dummy_exact : ExactAtZero := by
  refine ⟨fun _ _ => is_num rep_one, fun _ _ => is_num rep_zero, ?_⟩
  obtain ⟨m, e, h⟩ : ∃ m e, Libm.piMul (1 / 180) = .fin false m e ∧ m < 2 ^ 53 ∧ -1074 ≤ e ∧ e ≤ 971 :=
    ⟨5030569068109113, -58, by decide +kernel⟩
  exact ⟨_, false, m, e, h.1, h.2, rfl⟩

theorem gridLen_of {k : Nat} {attrs : List Attr} {name : String} (n : Spelling) (u : String) (f : Nat) {v r : ℚ} (h1 : n.WF)
    (h2 : Given attrs name (n.text ++ u.toList)) (h3 : n.value = v) (h4 : (u.toList, (f : Rat)) ∈ Spec.units) (h5 : v * f = r)
    (h6 : Grid k (v : ℝ)) (h7 : Grid k (r : ℝ)) : GridLen k attrs name (r : ℝ) := by
  have hb : Blank ([] : Str) := by intro c hc; cases hc
  refine ⟨h7, .inl ⟨n, [], [], [], u.toList, f, by simpa using h2, h1, hb, hb, hb, h4, by rw [h3]; exact h6, ?_⟩⟩
  rw [h3, ← h5]; push_cast; rfl

theorem gridLen_none {k : Nat} {attrs : List Attr} {name : String} (h : ∀ a ∈ attrs, a.name ≠ name.toList) : GridLen k attrs name 0 :=
  ⟨⟨0, by norm_num, by simp⟩, .inr ⟨not_given h, rfl⟩⟩

set_option maxRecDepth 100000 in
/-- The hypotheses of C70 are met by `<rect x="-1.5" width="2.25" height="1in"/>` at the start of a document. -/
example : Adds (readStartElement 0 "rect".toList (attrsOf [("x", "-1.5"), ("width", "2.25"), ("height", "1in")]) (initCursor (F := F64) .strict))
    (initCursor .strict) [⟨[.moveTo (toFixedP (-3 / 2 : ℝ) 0), .lineTo (toFixedP (3 / 4 : ℝ) 0), .lineTo (toFixedP (3 / 4 : ℝ) 96),
      .lineTo (toFixedP (-3 / 2 : ℝ) 96), .close], defaultStyle⟩] := by
  obtain ⟨A, hA⟩ : ∃ A, A = attrsOf [("x", "-1.5"), ("width", "2.25"), ("height", "1in")] := ⟨_, rfl⟩
  rw [← hA]
  have g1 : GridLen 2 A "x" ((-3 / 2 : ℚ) : ℝ) := gridLen_of ⟨true, "1".toList, some "5".toList, none⟩ "" 1 (v := -3 / 2) (by decide +kernel)
    (by rw [hA]; decide +kernel) (by decide +kernel) (by decide +kernel) (by norm_num) ⟨-6, by norm_num, by norm_num⟩ ⟨-6, by norm_num, by norm_num⟩
  have g3 : GridLen 2 A "width" ((9 / 4 : ℚ) : ℝ) := gridLen_of ⟨false, "2".toList, some "25".toList, none⟩ "" 1 (v := 9 / 4) (by decide +kernel)
    (by rw [hA]; decide +kernel) (by decide +kernel) (by decide +kernel) (by norm_num) ⟨9, by norm_num, by norm_num⟩ ⟨9, by norm_num, by norm_num⟩
  have g4 : GridLen 2 A "height" ((96 : ℚ) : ℝ) := gridLen_of ⟨false, "1".toList, none, none⟩ "in" 96 (v := 1) (by decide +kernel)
    (by rw [hA]; decide +kernel) (by decide +kernel) (by decide +kernel) (by norm_num) ⟨4, by norm_num, by norm_num⟩ ⟨384, by norm_num, by norm_num⟩
  have hz : Is (num 0 : F64) 0 := is_num rep_zero
  have := C70_rect dummy_exact (fuel := 0) (attrs := A) (by rw [hA]; decide) (ready_init (F := F64) .strict) hz hz (by norm_num) g1
    (gridLen_none (by rw [hA]; decide)) g3 g4 (gridLen_none (by rw [hA]; decide)) (gridLen_none (by rw [hA]; decide)) (by norm_num)
    (by norm_num) ⟨le_refl _, le_refl _⟩ (by norm_num [abs_le])
  norm_num at this ⊢
  exact this

set_option maxRecDepth 100000 in
/-- The hypotheses of C70 are met by `<polygon points="0.5,1 -2.75,3 4,5"/>`. -/
example : Adds (readStartElement 0 "polygon".toList (attrsOf [("points", "0.5,1 -2.75,3 4,5")]) (initCursor (F := F64) .strict))
    (initCursor .strict) [⟨[.moveTo (toFixedP (1 / 2 : ℝ) 1), .lineTo (toFixedP (-11 / 4 : ℝ) 3), .lineTo (toFixedP (4 : ℝ) 5), .close],
      defaultStyle⟩] := by
  have hz : Is (num 0 : F64) 0 := is_num rep_zero
  have v1 : (Spelling.value ⟨false, "0".toList, some "5".toList, none⟩) = 1 / 2 := by decide +kernel
  have v2 : (Spelling.value ⟨false, "1".toList, none, none⟩) = 1 := by decide +kernel
  have v3 : (Spelling.value ⟨true, "2".toList, some "75".toList, none⟩) = -11 / 4 := by decide +kernel
  have v4 : (Spelling.value ⟨false, "3".toList, none, none⟩) = 3 := by decide +kernel
  have v5 : (Spelling.value ⟨false, "4".toList, none, none⟩) = 4 := by decide +kernel
  have v6 : (Spelling.value ⟨false, "5".toList, none, none⟩) = 5 := by decide +kernel
  refine C70_poly_partial (closed := true) (p := (1 / 2, 1)) (pts := [(-11 / 4, 3), (4, 5)]) (k := 2)
    (l := ⟨[dec "" false "0" "5", int "," "1", dec " " true "2" "75", int "," "3", int " " "4", int "," "5"], []⟩)
    (by decide) (ready_init (F := F64) .strict) hz hz (by norm_num) (by decide +kernel) (by decide +kernel) ?_ ?_ (by decide)
  · simp only [coords, GroupList.numbers, Group.numbers, dec, int, List.flatMap_cons, List.flatMap_nil, List.append_nil,
      List.cons_append, List.nil_append, List.map_cons, List.map_nil, v1, v2, v3, v4, v5, v6]
    norm_num
  · intro r hr
    simp only [coords, List.flatMap_cons, List.flatMap_nil, List.cons_append, List.nil_append, List.mem_cons, List.not_mem_nil, or_false] at hr
    rcases hr with rfl | rfl | rfl | rfl | rfl | rfl
    · exact ⟨2, by norm_num, by norm_num⟩
    · exact ⟨4, by norm_num, by norm_num⟩
    · exact ⟨-11, by norm_num, by norm_num⟩
    · exact ⟨12, by norm_num, by norm_num⟩
    · exact ⟨16, by norm_num, by norm_num⟩
    · exact ⟨20, by norm_num, by norm_num⟩

end Examples

end GoSvg
