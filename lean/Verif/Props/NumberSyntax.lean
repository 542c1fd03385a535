import Verif.Lemmas.Float64
import Verif.Lemmas.Docs
import Verif.Props.Numbers

/-! C69: which texts are read as numbers. -/

namespace GoSvg

open Spec F64

namespace F64

/-- A result of rounding that is a finite number is one in its canonical form. -/
theorem roundAbs_is {q : ℚ} (hq : 0 ≤ q) {s s' : Bool} {m : Nat} {e : Int} (h : roundAbs s q = .fin s' m e) :
    ∃ p, Is (.fin s' m e) p := by
  suffices m < 2 ^ 53 ∧ -1074 ≤ e ∧ e ≤ 971 from ⟨_, s', m, e, rfl, this, rfl⟩
  rcases hq.eq_or_lt with rfl | hq
  · rw [roundAbs_zero, F64.fin.injEq] at h
    obtain ⟨-, rfl, rfl⟩ := h
    exact ⟨by norm_num, by norm_num, by norm_num⟩
  · obtain ⟨l, h1, h2, h3⟩ := log_bounds hq
    obtain ⟨l', e', m', h1', h2', he', hm', hle, -⟩ := roundAbs_pos hq s
    have hl : l = l' := by
      have a : (2 : ℚ) ^ l < 2 ^ (l' + 1) := h1.trans_lt h2'
      have b : (2 : ℚ) ^ l' < 2 ^ (l + 1) := h1'.trans_lt h2
      rw [zpow_lt_zpow_iff_right₀ (by norm_num)] at a b
      omega
    subst hl
    rw [← he'] at h3
    unfold roundAbs at h
    rw [if_neg hq.ne', h3] at h
    dsimp only at h
    rw [twoPow_eq, ← hm'] at h
    by_cases h53 : m' = 2 ^ 53
    · rw [if_pos h53] at h
      dsimp only at h
      split at h
      · cases h
      · rw [F64.fin.injEq] at h
        obtain ⟨-, rfl, rfl⟩ := h
        exact ⟨by norm_num, by omega, by omega⟩
    · rw [if_neg h53] at h
      dsimp only at h
      split at h
      · cases h
      · rw [F64.fin.injEq] at h
        obtain ⟨-, rfl, rfl⟩ := h
        exact ⟨by omega, by omega, by omega⟩

end F64

theorem lower_n {c : Char} (h : c.toLower = 'n') : c = 'n' ∨ c = 'N' := by
  unfold Char.toLower at h
  split at h
  · right
    rw [Char.ext_iff] at h ⊢
    simp only at h
    have : c.val = 'n'.val - ('a'.val - 'A'.val) := by rw [← h]; simp
    rw [this]; rfl
  · exact .inl h

section

variable [GoEnv]

theorem parseDec_nonneg {t : Str} {n : Bool} {q : ℚ} (h : parseDec t = some (n, q)) : 0 ≤ q := by
  unfold parseDec at h
  simp only at h
  split at h
  · simp at h
  · split at h
    · simp at h
    · simp only [Option.some.injEq, Prod.mk.injEq] at h
      rw [← h.2, tenPow_eq]
      positivity

theorem decimal_chars {t : Str} (h : IsDecimal t) : ∀ c ∈ t, c ∉ "_xXnN".toList := by
  have hdig : ∀ {d : Str}, Digits d → ∀ c ∈ d, c ∉ "_xXnN".toList := by
    intro d hd c hc hm
    have := hd c hc
    revert this
    have : ∀ c ∈ "_xXnN".toList, ¬ c.isDigit = true := by decide
    exact this c hm
  obtain ⟨sign, ip, fp, ex, rfl, h1, h2, h3, -, h4⟩ := h
  have hs : ∀ {sg : Str}, (sg = [] ∨ sg = ['-'] ∨ sg = ['+']) → ∀ c ∈ sg, c ∉ "_xXnN".toList := by
    rintro sg (rfl | rfl | rfl) <;> decide
  intro c hc
  simp only [List.mem_append] at hc
  rcases hc with ((hc | hc) | hc) | hc
  · exact hs h1 c hc
  · exact hdig h2 c hc
  · rcases h3 with rfl | ⟨f, rfl, hf⟩
    · simp at hc
    · rcases List.mem_cons.1 hc with rfl | hc
      · decide
      · exact hdig hf c hc
  · rcases h4 with rfl | ⟨e, s, d, rfl, he, h5, h6, -⟩
    · simp at hc
    · rcases List.mem_cons.1 hc with rfl | hc
      · rcases he with rfl | rfl <;> decide
      · rcases List.mem_append.1 hc with hc | hc
        · exact hs h5 c hc
        · exact hdig h6 c hc

/-- Without the characters that the other literals need, a literal is decimal. -/
theorem lit_decimal {t : Str} {l : Lit} (h : parseLit t = some l) (hc : ∀ c ∈ t, c ∉ "_xXnN".toList) :
    IsDecimal t ∧ ∃ n q, l = .fin n q ∧ 0 ≤ q := by
  have hu : '_' ∉ t := fun hm => hc _ hm (by decide)
  have hf : t.filter (· ≠ '_') = t := by
    rw [List.filter_eq_self]
    intro a ha
    simp only [decide_eq_true_eq, ne_eq]
    rintro rfl
    exact hu ha
  unfold parseLit at h
  cases hd : parseDec t with
  | some v =>
    rw [hd] at h
    cases h
    exact ⟨isDecimal_of_parse hd, _, _, rfl, parseDec_nonneg hd⟩
  | none =>
    exfalso
    rw [hf, hd] at h
    simp only [hu, false_and, if_false] at h
    cases hsp : parseSpecial t with
    | some l' =>
      obtain ⟨sign, w, rfl, -, hw⟩ := (isSpecial_of_parse hsp).1
      have hn : 'n' ∈ w.map Char.toLower := by
        rcases hw with hw | hw | ⟨-, hw⟩ <;> rw [hw] <;> decide
      obtain ⟨c, hcw, hcn⟩ := List.mem_map.1 hn
      have hcc := hc c (List.mem_append_right _ hcw)
      rcases lower_n hcn with rfl | rfl <;> exact hcc (by decide)
    | none =>
      rw [hsp] at h
      simp only at h
      cases hx : parseHexLit t with
      | none => rw [hx, hd] at h; simp at h
      | some v =>
        obtain ⟨sign, ip, fp, s, d, x, p, rfl, -, hx, -⟩ := isHex_of_parse hx
        exact absurd (by rcases hx with rfl | rfl <;> decide) (hc x (by simp))

end

variable [Libm]

theorem accepted_lit {s : Str} {v : F64} {vb : Bounds F64} {ref : PercRef}
    (h : parseBasicFloat s = .ok v ∨ resolveUnit vb s ref = .ok v) : ∃ x l, parseLit (findUnit s).2 = some l ∧
      F64.parse (findUnit s).2 = some x := by
  have hp : ∃ x, (GoFloat.parse (findUnit s).2 : Option F64) = some x := by
    cases hx : (GoFloat.parse (findUnit s).2 : Option F64) with
    | some x => exact ⟨x, rfl⟩
    | none =>
      have : (parseUnit s : Res (F64 × Bool)) = .err .badFloat := by simp [parseUnit, hx]
      simp [parseBasicFloat, resolveUnit, this] at h
  obtain ⟨x, hx⟩ := hp
  change F64.parse _ = _ at hx
  cases hl : parseLit (findUnit s).2 with
  | none => unfold F64.parse at hx; rw [hl] at hx; simp at hx
  | some l => exact ⟨x, l, rfl, hx⟩

/-- C69, syntax: what is accepted is, apart from white space and a unit, a number literal of Go, an infinity or `nan`; and a
decimal number if it has none of the characters the others need. -/
theorem C69_syntax_partial [GoEnv] (s : Str) (v : F64) (vb : Bounds F64) (ref : PercRef)
    (h : parseBasicFloat s = .ok v ∨ resolveUnit vb s ref = .ok v) :
    ∃ w t w' u w'', s = w ++ (t ++ w' ++ u) ++ w'' ∧ Blank w ∧ Blank w' ∧ Blank w'' ∧ (IsGoNumber t ∨ IsSpecial t) ∧
      ((∀ c ∈ t, c ∉ "_xXnN".toList) → IsDecimal t) ∧ ((∃ f, (u, f) ∈ Spec.units) ∨ u = "%".toList) := by
  obtain ⟨x, l, hl, -⟩ := accepted_lit h
  obtain ⟨w, w', w'', suf, h1, h2, h3, h4, h5⟩ := findUnit_spec s
  refine ⟨w, (findUnit s).2, w', suf, w'', h1, h2, h3, h4, (lit_spec hl).imp And.left And.left, fun hc => (lit_decimal hl hc).1, ?_⟩
  rcases h5 with h5 | ⟨_, rfl⟩
  · have : ∀ u ∈ absoluteUnits, (u.2 ∈ Spec.units.map (·.1)) ∨ u.2 = "%".toList := by decide
    rcases this _ h5 with h | h
    · simp only [List.mem_map] at h
      obtain ⟨⟨a, b⟩, hab, rfl⟩ := h
      exact .inl ⟨b, hab⟩
    · exact .inr h
  · exact .inl ⟨1, by simp [Spec.units]⟩

/-- C69, values: a decimal number without a unit that is accepted is a finite number of binary64. -/
theorem C69_finite_partial [GoEnv] (s : Str) (v : F64) (vb : Bounds F64) (ref : PercRef)
    (h : parseBasicFloat s = .ok v ∨ resolveUnit vb s ref = .ok v)
    (hs : ∀ c ∈ s, (c.isAlpha = true → c = 'e' ∨ c = 'E') ∧ c ≠ '_' ∧ c ≠ '%') : ∃ q, Is v q := by
  obtain ⟨x, l, hl, hx⟩ := accepted_lit h
  obtain ⟨w, w', w'', suf, h1, -, -, -, h5⟩ := findUnit_spec s
  have hmem : ∀ c ∈ (findUnit s).2, c ∈ s := fun c hc => by rw [h1]; simp [hc]
  have hu : (findUnit s).1 = .px := by
    rcases h5 with h5 | ⟨h, -⟩
    · have hsuf : ∀ c ∈ suf, c ∈ s := fun c hc => by rw [h1]; simp [hc]
      have : ∀ u ∈ absoluteUnits, u.1 = .px ∨ ∃ c ∈ u.2, ¬ ((c.isAlpha = true → c = 'e' ∨ c = 'E') ∧ c ≠ '_' ∧ c ≠ '%') := by decide
      rcases this _ h5 with h | ⟨c, hc, hn⟩
      · exact h
      · exact absurd (hs c (hsuf c hc)) hn
    · exact h
  obtain ⟨-, n, q, rfl, hq⟩ := lit_decimal hl fun c hc hm => by
    have h2 := hs c (hmem c hc)
    have : ∀ c ∈ "_xXnN".toList, ¬ ((c.isAlpha = true → c = 'e' ∨ c = 'E') ∧ c ≠ '_' ∧ c ≠ '%') := by decide
    exact this c hm h2
  have hI : ∃ p, Is x p := by
    unfold F64.parse at hx
    rw [hl] at hx
    simp only at hx
    split at hx
    · rename_i s' m e hr
      cases hx
      exact roundAbs_is hq hr
    · simp at hx
  obtain ⟨p, hI⟩ := hI
  have hpu : (parseUnit s : Res (F64 × Bool)) = .ok (x *. num 1, false) := by
    have : (GoFloat.parse (findUnit s).2 : Option F64) = some x := hx
    simp [parseUnit, this, hu, toPx]
  have hv : v = x *. num 1 := by
    rcases h with h | h
    · simp only [parseBasicFloat, hpu, Res.ok.injEq] at h
      exact h.symm
    · simp only [resolveUnit, hpu, Bool.false_eq_true, if_false, Res.ok.injEq] at h
      exact h.symm
  exact ⟨p, by rw [hv]; exact is_mul_one hI⟩

end GoSvg

namespace GoSvg

section Examples

attribute [local instance] asciiEnv
attribute [local instance] dummyLibm

/-- An accepted number that meets the hypotheses of `C69_finite_partial`. -/
example : (∃ v : F64, parseBasicFloat " -2.5E+3 ".toList = .ok v) ∧
    ∀ c ∈ " -2.5E+3 ".toList, (c.isAlpha = true → c = 'e' ∨ c = 'E') ∧ c ≠ '_' ∧ c ≠ '%' :=
  ⟨⟨.fin true 5497558138880000 (-41), by decide +kernel⟩, by decide⟩

def numDoc (x : String) : List Token := elem "svg" [] (elem "line" [("x2", x), ("y2", "1")])

set_option maxRecDepth 100000 in
/-- Hexadecimal numbers and digit separators are accepted: 0x1.8p4 is 24, 1_0 is 10. -/
theorem C69_hex_false : pathsOf 0 (numDoc "0x1.8p4") = some [[.moveTo ⟨0, 0⟩, .lineTo ⟨24 * 64, 64⟩]] ∧
    pathsOf 2 (numDoc "1_0px") = some [[.moveTo ⟨0, 0⟩, .lineTo ⟨640, 64⟩]] := by
  decide +kernel

set_option maxRecDepth 100000 in
/-- Infinities and `nan` are accepted in every error mode, also before a unit; the coordinate is then the least number. A
number whose pixels exceed the largest number of binary64 is accepted, too. -/
theorem C69_infinite_false : ∀ x ∈ ["Inf", "-infinity", "NaN", "infin", "1e308in"], ∀ mode ∈ [0, 1, 2],
    pathsOf mode (numDoc x) = some [[.moveTo ⟨0, 0⟩, .lineTo ⟨-2 ^ 31, 64⟩]] := by
  decide +kernel

set_option maxRecDepth 100000 in
/-- The values themselves. -/
theorem C69_values_false : (parseBasicFloat "Inf".toList : Res F64) = .ok (.inf false) ∧ (parseBasicFloat "nan".toList : Res F64) = .ok .nan ∧
    (parseBasicFloat "1e308in".toList : Res F64) = .ok (.inf false) := by
  decide +kernel

end Examples

end GoSvg
