import Verif.Lemmas.Round
import Verif.Props.Float64
import Verif.Props.Inherit
import Verif.Props.Render

/-! C25 and C53 in binary64: opacities. -/

namespace GoSvg.F64

open Spec

variable [Libm]

/-- Between 0 and 1 a nearest number is at most 2^-54 off. -/
theorem nearest_unit {x : F64} {p q : ℚ} (hn : Nearest x q) (hx : Is x p) (h0 : 0 ≤ q) (h1 : q ≤ 1) : |p - q| ≤ 1 / 2 ^ 54 := by
  obtain ⟨p', hp', hn⟩ := hn
  have := is_unique hx hp'
  subst this
  set n : ℤ := round (q * 2 ^ 53) with hnd
  have hr : |q * 2 ^ 53 - n| ≤ 1 / 2 := abs_sub_round _
  have hq : |(n : ℚ) / 2 ^ 53 - q| ≤ 1 / 2 ^ 54 := by
    have e : (n : ℚ) / 2 ^ 53 - q = -(q * 2 ^ 53 - n) / 2 ^ 53 := by field_simp; ring
    rw [e, abs_div, abs_neg, abs_of_pos (by positivity : (0 : ℚ) < 2 ^ 53), div_le_iff₀ (by positivity)]
    refine hr.trans (le_of_eq ?_)
    norm_num
  refine (hn _ ?_).trans hq
  have hb := abs_le.1 hr
  have l1 : n ≤ 2 ^ 53 := by
    have : (n : ℚ) ≤ 2 ^ 53 + 1 / 2 := by nlinarith [hb.1]
    by_contra hc
    have hc : 2 ^ 53 + 1 ≤ n := by omega
    have : ((2 ^ 53 + 1 : ℤ) : ℚ) ≤ n := by exact_mod_cast hc
    push_cast at this
    linarith
  have l0 : 0 ≤ n := by
    have : -(1 / 2) ≤ (n : ℚ) := by nlinarith [hb.2]
    by_contra hc
    have hc : n ≤ -1 := by omega
    have : (n : ℚ) ≤ ((-1 : ℤ) : ℚ) := by exact_mod_cast hc
    push_cast at this
    linarith
  rcases l1.eq_or_lt with h | h
  · rw [h]
    have : (((2 ^ 53 : ℤ) : ℚ) / 2 ^ 53) = 1 := by norm_num
    rw [this]; simpa using rep_nat (n := 1) (by norm_num)
  · exact rep_grid (by norm_num) (by rw [abs_of_nonneg l0]; exact h)

theorem rep_one' : Rep 1 := by simpa using rep_nat (n := 1) (by norm_num)

/-- The product of numbers between 0 and 1, factor after factor: in range, and off by at most 2^-53 for every factor. -/
theorem foldl_unit : ∀ {xs : List F64} {qs : List ℚ}, List.Forall₂ (fun x q => Nearest x q ∧ 0 ≤ q ∧ q ≤ 1) xs qs → ∀ {a : F64} {p P d : ℚ},
    Is a p → 0 ≤ p → p ≤ 1 → 0 ≤ P → P ≤ 1 → |p - P| ≤ d →
    ∃ r, Is (xs.foldl (· *. ·) a) r ∧ 0 ≤ r ∧ r ≤ p ∧ |r - P * qs.prod| ≤ d + qs.length / 2 ^ 53
  | [], [], .nil, a, p, P, d, ha, h0, h1, _, _, hd => ⟨p, ha, h0, le_refl _, by simpa using hd⟩
  | x :: xs, q :: qs, .cons ⟨hn, q0, q1⟩ h, a, p, P, d, ha, h0, h1, H0, H1, hd => by
    obtain ⟨z, hz, -⟩ := id hn
    have z0 : 0 ≤ z := le_nearest hn hz rep_zero q0
    have z1 : z ≤ 1 := nearest_le hn hz rep_one' q1
    have zq := nearest_unit hn hz q0 q1
    have m0 : 0 ≤ p * z := mul_nonneg h0 z0
    have mp : p * z ≤ p := mul_le_of_le_one_right h0 z1
    have hm := mul_nearest ha hz (unit_bound m0 (by linarith))
    obtain ⟨w, hw, -⟩ := id hm
    have w0 : 0 ≤ w := le_nearest hm hw rep_zero m0
    have w1 : w ≤ p := nearest_le hm hw (is_rep ha) mp
    have wd := nearest_unit hm hw m0 (by linarith)
    have hd' : |w - P * q| ≤ d + 1 / 2 ^ 53 := by
      have e : w - P * q = (w - p * z) + (p - P) * z + P * (z - q) := by ring
      rw [e]
      have t1 : |(p - P) * z| ≤ d := by
        rw [abs_mul, abs_of_nonneg z0]
        have := abs_nonneg (p - P)
        nlinarith
      have t2 : |P * (z - q)| ≤ 1 / 2 ^ 54 := by
        rw [abs_mul, abs_of_nonneg H0]
        have := abs_nonneg (z - q)
        nlinarith
      have t3 := abs_add_le ((w - p * z) + (p - P) * z) (P * (z - q))
      have t4 := abs_add_le (w - p * z) ((p - P) * z)
      have t5 : (1 : ℚ) / 2 ^ 53 = 1 / 2 ^ 54 + 1 / 2 ^ 54 := by norm_num
      linarith
    obtain ⟨r, hr, r0, r1, rd⟩ := foldl_unit h (a := a *. x) hw w0 (w1.trans h1) (mul_nonneg H0 q0)
      ((mul_le_of_le_one_right H0 q1).trans H1) hd'
    refine ⟨r, hr, r0, r1.trans w1, ?_⟩
    rw [List.prod_cons, ← mul_assoc]
    refine rd.trans (le_of_eq ?_)
    rw [List.length_cons]
    push_cast
    ring

end GoSvg.F64

namespace GoSvg

open Spec F64

variable [Libm] [GoEnv]

theorem read_values_nearest {ns : List Spelling} (hn : ∀ n ∈ ns, n.WF) (h1 : ∀ n ∈ ns, 0 ≤ n.value ∧ n.value ≤ 1) {zs : List F64}
    (h : List.Forall₂ (fun v z => parseBasicFloat v = .ok z) (ns.map Spelling.text) zs) :
    List.Forall₂ (fun x q => Nearest x q ∧ 0 ≤ q ∧ q ≤ 1) zs (ns.map Spelling.value) := by
  induction ns generalizing zs with
  | nil => cases h; exact .nil
  | cons n ns ih =>
    cases h with
    | cons hv h =>
      obtain ⟨b0, b1⟩ := h1 n List.mem_cons_self
      have hwf := hn n List.mem_cons_self
      obtain ⟨x, hx, p, hI, hne⟩ := parse_nearest hwf (by rw [← abs_value]; exact unit_bound b0 (by linarith))
      have hb : Blank ([] : Str) := by intro c hc; cases hc
      have := ((C03_units n hwf (u := []) (f := 1) (by simp [Spec.units]) hb hb hb (⟨num 0, num 0, num 0, num 0⟩ : Bounds F64) .width).1 x hx).1
      simp only [List.append_nil, List.nil_append] at this
      rw [this] at hv
      cases hv
      exact .cons ⟨⟨p, is_mul_one hI, hne⟩, b0, b1⟩
        (ih (fun m hm => hn m (List.mem_cons_of_mem _ hm)) (fun m hm => h1 m (List.mem_cons_of_mem _ hm)) h)

/-- C25 in binary64, for values that are plain decimal numbers from 0 to 1: the opacity is from 0 to 1 and differs from the exact
product by at most 2^-53 for every factor. Partial as `C25_opacity_partial`. -/
theorem C25_float64_partial {fuel : Nat} {m : ErrorMode} {pre post : List Token} {name : Str} {attrs : List Attr} {s : Svg F64}
    {l : List Msg} {i : Nat} {p : SvgPath F64} (hb : Balanced (pre ++ [.start name attrs])) {ch : List Elem}
    (hch : openFrom [] pre = some ch)
    (h : parse fuel m (pre ++ .start name attrs :: post) .eof = .done (some s) none l)
    (hd : DrawnBy (F := F64) fuel m pre (.start name attrs) i) (hp : s.svgPaths[i]? = some p) :
    (∀ ns : List Spelling, (∀ n ∈ ns, n.WF) → (∀ n ∈ ns, 0 ≤ n.value ∧ n.value ≤ 1) →
      valuesAlong ["opacity", "fill-opacity"] (⟨name, attrs⟩ :: ch) = ns.map Spelling.text →
      ∃ r, Is p.style.fillOpacity r ∧ 0 ≤ r ∧ r ≤ 1 ∧ |r - (ns.map Spelling.value).prod| ≤ ns.length / 2 ^ 53) ∧
    (∀ ns : List Spelling, (∀ n ∈ ns, n.WF) → (∀ n ∈ ns, 0 ≤ n.value ∧ n.value ≤ 1) →
      valuesAlong ["opacity", "stroke-opacity"] (⟨name, attrs⟩ :: ch) = ns.map Spelling.text →
      ∃ r, Is p.style.lineOpacity r ∧ 0 ≤ r ∧ r ≤ 1 ∧ |r - (ns.map Spelling.value).prod| ≤ ns.length / 2 ^ 53) := by
  have key : ∀ (ns : List Spelling) (zs : List F64), (∀ n ∈ ns, n.WF) → (∀ n ∈ ns, 0 ≤ n.value ∧ n.value ≤ 1) →
      List.Forall₂ (fun v z => parseBasicFloat v = .ok z) (ns.map Spelling.text) zs →
      ∃ r, Is (zs.foldl (· *. ·) (num 1)) r ∧ 0 ≤ r ∧ r ≤ 1 ∧ |r - (ns.map Spelling.value).prod| ≤ ns.length / 2 ^ 53 := by
    intro ns zs hn h1 hz
    obtain ⟨r, a, b, c, d⟩ := foldl_unit (read_values_nearest hn h1 hz) (is_num rep_one') (P := 1) (d := 0) (by norm_num) (le_refl _)
      (by norm_num) (le_refl _) (by norm_num)
    exact ⟨r, a, b, c, by simpa using d⟩
  obtain ⟨⟨zs, h1, h2⟩, ⟨us, h3, h4⟩⟩ := C25_opacity_partial hb hch h hd hp
  constructor
  · intro ns hn hr hv
    rw [hv] at h1
    rw [h2]; exact key ns zs hn hr h1
  · intro ns hn hr hv
    rw [hv] at h3
    rw [h4]; exact key ns us hn hr h3

omit [GoEnv] in
/-- The alpha in binary64: the rounded 16-bit product, rounded down and cut to 8 bits. -/
theorem alpha_f64 {c : Color} (hc : c.a < 256) {o : F64} {q : ℚ} (ho : Is o q) (h0 : 0 ≤ q) (h1 : q ≤ 1) :
    ∃ p, Is ((GoFloat.ofInt ((c.a * 257 : ℕ) : ℤ) : F64) *. o) p ∧ Nearest ((GoFloat.ofInt ((c.a * 257 : ℕ) : ℤ) : F64) *. o) (c.a * 257 * q) ∧
      0 ≤ p ∧ p ≤ c.a * 257 ∧ ((toColor c o).a : ℤ) = ⌊p⌋ / 256 := by
  have hi : Is (GoFloat.ofInt ((c.a * 257 : ℕ) : ℤ) : F64) ((c.a * 257 : ℕ) : ℚ) :=
    roundRat_exact _ (by simpa using rep_nat (n := c.a * 257) (by omega))
  have hr : Rep ((c.a * 257 : ℕ) : ℚ) := is_rep hi
  have m0 : 0 ≤ ((c.a * 257 : ℕ) : ℚ) * q := mul_nonneg (by positivity) h0
  have m1 : ((c.a * 257 : ℕ) : ℚ) * q ≤ ((c.a * 257 : ℕ) : ℚ) := mul_le_of_le_one_right (by positivity) h1
  have hle : ((c.a * 257 : ℕ) : ℚ) ≤ 65536 := by exact_mod_cast (show c.a * 257 ≤ 65536 by omega)
  have hn := mul_nearest hi ho (unit_bound m0 (m1.trans hle))
  obtain ⟨p, hp, -⟩ := id hn
  have p0 := le_nearest hn hp rep_zero m0
  have p1 := nearest_le hn hp hr m1
  refine ⟨p, hp, by simpa using hn, p0, by simpa using p1, ?_⟩
  have hfl0 : 0 ≤ ⌊p⌋ := Int.floor_nonneg.2 p0
  have hfl1 : ⌊p⌋ ≤ 65535 := by
    have : (⌊p⌋ : ℚ) ≤ (((65535 : ℕ) : ℤ) : ℚ) := by
      refine (Int.floor_le p).trans (p1.trans ?_)
      exact_mod_cast (show c.a * 257 ≤ 65535 by omega)
    exact_mod_cast this
  have ht : ((GoFloat.ofInt ((c.a * 257 : ℕ) : ℤ) : F64) *. o).trunc = ⌊p⌋ := by
    rw [trunc_of hp, Int.tdiv_eq_ediv_of_nonneg (Rat.num_nonneg.2 p0)]
    exact (Rat.floor_def p).symm
  have hu : GoFloat.toU32 ((GoFloat.ofInt ((c.a * 257 : ℕ) : ℤ) : F64) *. o) = ⌊p⌋.toNat := by
    change (toSigned 63 _ % 2 ^ 32).toNat = _
    obtain ⟨s, m, e, hf, -⟩ := hp
    rw [hf] at ht ⊢
    change (((if _ then _ else _ : ℤ)) % 2 ^ 32).toNat = _
    rw [ht, if_pos (by constructor <;> omega)]
    omega
  have e : (toColor c o).a = ⌊p⌋.toNat / 256 % 256 := by
    rw [← hu]; rfl
  rw [e]
  omega

omit [GoEnv] in
/-- C53 in binary64, for opacities from 0 to 1: the alpha is not larger than the colour's, not smaller than the rounded-down product, and
at most one more than that. -/
theorem C53_float64_partial {c : Color} (hc : c.a < 256) {o : F64} {q : ℚ} (ho : Is o q) (h0 : 0 ≤ q) (h1 : q ≤ 1) :
    (toColor c o).a ≤ c.a ∧ ⌊(c.a : ℚ) * q⌋ ≤ (toColor c o).a ∧ ((toColor c o).a : ℤ) ≤ ⌊(c.a : ℚ) * q⌋ + 1 := by
  obtain ⟨p, hp, hn, p0, p1, e⟩ := alpha_f64 hc ho h0 h1
  have hfl : ⌊p⌋ ≤ c.a * 257 := by
    have : (⌊p⌋ : ℚ) ≤ ((c.a * 257 : ℤ) : ℚ) := by push_cast; exact (Int.floor_le p).trans p1
    exact_mod_cast this
  have b0 : 0 ≤ ⌊(c.a : ℚ) * q⌋ := Int.floor_nonneg.2 (mul_nonneg (by positivity) h0)
  have b1 : ⌊(c.a : ℚ) * q⌋ ≤ c.a := by
    have : (⌊(c.a : ℚ) * q⌋ : ℚ) ≤ ((c.a : ℤ) : ℚ) := (Int.floor_le _).trans (by push_cast; exact mul_le_of_le_one_right (by positivity) h1)
    exact_mod_cast this
  generalize hN : ⌊(c.a : ℚ) * q⌋ = N at *
  obtain ⟨n, rfl⟩ := Int.eq_ofNat_of_zero_le b0
  have n1 : (n : ℚ) ≤ c.a * q := by have := Int.floor_le ((c.a : ℚ) * q); rw [hN] at this; exact_mod_cast this
  have n2 : (c.a : ℚ) * q < n + 1 := by have := Int.lt_floor_add_one ((c.a : ℚ) * q); rw [hN] at this; exact_mod_cast this
  have l : ((n * 257 : ℕ) : ℚ) ≤ p := le_nearest hn hp (rep_nat (by omega)) (by push_cast; nlinarith)
  have u : p ≤ (((n + 1) * 257 : ℕ) : ℚ) := nearest_le hn hp (rep_nat (by omega)) (by push_cast; nlinarith)
  have l' : ((n * 257 : ℕ) : ℤ) ≤ ⌊p⌋ := Int.le_floor.2 (by exact_mod_cast l)
  have u' : ⌊p⌋ ≤ (((n + 1) * 257 : ℕ) : ℤ) := by
    have : (⌊p⌋ : ℚ) ≤ ((((n + 1) * 257 : ℕ) : ℤ) : ℚ) := (Int.floor_le p).trans (by exact_mod_cast u)
    exact_mod_cast this
  push_cast at l' u'
  refine ⟨?_, ?_, ?_⟩ <;> omega

omit [GoEnv] in
/-- C53 in binary64: more opacity never gives less alpha, between 0 and 1. -/
theorem C53_float64_monotone {c : Color} (hc : c.a < 256) {o o' : F64} {q q' : ℚ} (ho : Is o q) (ho' : Is o' q') (h0 : 0 ≤ q) (h : q ≤ q')
    (h1 : q' ≤ 1) : (toColor c o).a ≤ (toColor c o').a := by
  obtain ⟨p, hp, -, -, -, e⟩ := alpha_f64 hc ho h0 (h.trans h1)
  obtain ⟨p', hp', -, -, -, e'⟩ := alpha_f64 hc ho' (h0.trans h) h1
  have hi : Is (GoFloat.ofInt ((c.a * 257 : ℕ) : ℤ) : F64) ((c.a * 257 : ℕ) : ℚ) :=
    roundRat_exact _ (by simpa using rep_nat (n := c.a * 257) (by omega))
  have hle : ((c.a * 257 : ℕ) : ℚ) ≤ 65536 := by exact_mod_cast (show c.a * 257 ≤ 65536 by omega)
  have k0 : (0 : ℚ) ≤ ((c.a * 257 : ℕ) : ℚ) := by positivity
  obtain ⟨r, r', i1, i2, hrr⟩ := mul_mono hi ho hi ho' (mul_le_mul_of_nonneg_left h k0)
    (unit_bound (mul_nonneg k0 h0) ((mul_le_of_le_one_right k0 (h.trans h1)).trans hle))
    (unit_bound (mul_nonneg k0 (h0.trans h)) ((mul_le_of_le_one_right k0 h1).trans hle))
  have := is_unique i1 hp
  subst this
  have := is_unique i2 hp'
  subst this
  have := Int.floor_le_floor hrr
  omega

end GoSvg

namespace GoSvg

open Spec F64

section Examples

attribute [local instance] asciiEnv

attribute [local instance] dummyLibm

/-- The hypotheses of C53 are met by a half transparent red and the opacity 0.3 as binary64 has it. -/
example : ∃ q, Is (.fin false 5404319552844595 (-54)) q ∧ 0 ≤ q ∧ q ≤ 1 ∧ (⟨255, 0, 0, 128⟩ : Color).a < 256 :=
  ⟨_, ⟨false, _, _, rfl, by norm_num, rfl⟩, by norm_num, by norm_num, by norm_num⟩

example : (toColor ⟨255, 0, 0, 128⟩ (F64.fin false 5404319552844595 (-54))).a = 38 := by decide +kernel

set_option maxRecDepth 100000 in
/-- The hypotheses of C25 are met by `<svg opacity="0.5"><g fill-opacity=".3">` around a rectangle; the opacity is 0.15. -/
theorem C25_float64_example :
    let pre := [.start "svg".toList (attrsOf [("opacity", "0.5")]), .start "g".toList (attrsOf [("fill-opacity", ".3")])]
    let rect : Elem := ⟨"rect".toList, attrsOf [("width", "4"), ("height", "4")]⟩
    let post := [.stop "rect".toList, .stop "g".toList, .stop "svg".toList]
    Balanced (pre ++ [tagOf rect]) ∧ DrawnBy (F := F64) 8 .strict pre (tagOf rect) 0 ∧
    (openFrom [] pre).map (fun ch => valuesAlong ["opacity", "fill-opacity"] (rect :: ch)) =
      some ([⟨false, "0".toList, some "5".toList, none⟩, ⟨false, [], some "3".toList, none⟩].map Spelling.text) ∧
    (styleAt (pre ++ tagOf rect :: post) 0).map (·.fillOpacity) = some (.fin false 5404319552844595 (-55)) := by
  exact ⟨⟨by decide +kernel, .inl (by decide +kernel)⟩, by decide +kernel, by decide +kernel, by decide +kernel⟩

set_option maxRecDepth 100000 in
/-- C25 does not hold for percentages: `opacity="50%"` makes the opacity 50. -/
theorem C25_percent_false :
    (svgOf (elem "svg" [] (elem "rect" [("width", "4"), ("height", "4"), ("opacity", "50%")]))).map
      (fun s => s.svgPaths.map (·.style.fillOpacity)) = some [num 50] := by
  decide +kernel

end Examples

end GoSvg
