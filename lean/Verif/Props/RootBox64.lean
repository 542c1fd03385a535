import Verif.Props.RootBox
import Verif.Props.Float64Matrix
import Verif.Props.ShapeError

/-! C58: the view box of a drawing in binary64. -/

namespace GoSvg

open Spec F64

section

variable [GoEnv] [Libm]

omit [GoEnv] [Libm] in
theorem nearest_ne_zero {x : F64} {p q : ℚ} (hn : Nearest x q) (hx : Is x p) (hq : 1 / 2 ^ 1000 ≤ |q|) : p ≠ 0 := by
  rintro rfl
  obtain ⟨p, h1, h2⟩ := hn
  have hp : p = 0 := (is_val h1).symm.trans (is_val hx)
  subst hp
  have r1 : Rep ((1 : ℤ) / 2 ^ 1000 : ℚ) := rep_grid (k := 1000) (by norm_num) (by norm_num)
  have r2 : Rep ((-1 : ℤ) / 2 ^ 1000 : ℚ) := rep_grid (k := 1000) (by norm_num) (by norm_num)
  have pos : (0 : ℚ) < 1 / 2 ^ 1000 := by positivity
  have e1 : ((1 : ℤ) : ℚ) / 2 ^ 1000 = 1 / 2 ^ 1000 := by rw [Int.cast_one]
  have e2 : ((-1 : ℤ) : ℚ) / 2 ^ 1000 = -(1 / 2 ^ 1000) := by rw [Int.cast_neg, Int.cast_one, neg_div]
  have k1 := h2 _ r1
  have k2 := h2 _ r2
  rw [e1] at k1
  rw [e2] at k2
  generalize (1 : ℚ) / 2 ^ 1000 = t at *
  rw [zero_sub, abs_neg] at k1 k2
  rcases le_total 0 q with h0 | h0
  · rw [abs_of_nonneg h0] at hq k1
    rw [abs_of_nonpos (by linarith)] at k1
    linarith
  · rw [abs_of_nonpos h0] at hq k2
    rw [abs_of_nonneg (by linarith)] at k2
    linarith

omit [GoEnv] [Libm] in
theorem rep_bound {q : ℚ} (h : Rep q) : |q| < 2 ^ (1024 : Int) - 2 ^ (970 : Int) := by
  obtain ⟨m, e, hm, -, he, hq⟩ := h
  rw [hq]
  have h1 : (m : ℚ) ≤ 2 ^ 53 - 1 := by
    have : (m : ℤ) ≤ 2 ^ 53 - 1 := by omega
    exact_mod_cast this
  have h2 : (2 : ℚ) ^ e ≤ 2 ^ (971 : Int) := zpow_le_zpow_right₀ (by norm_num) he
  have h3 : (0 : ℚ) < 2 ^ (970 : Int) := by positivity
  have e1 : (2 : ℚ) ^ (971 : Int) = 2 * 2 ^ (970 : Int) := by
    rw [show (971 : Int) = 1 + 970 from rfl, zpow_add₀ (by norm_num), zpow_one]
  have e2 : (2 : ℚ) ^ (1024 : Int) = 2 ^ 54 * 2 ^ (970 : Int) := by
    rw [show (1024 : Int) = 54 + 970 from rfl, zpow_add₀ (by norm_num)]; rfl
  have h4 : (m : ℚ) * 2 ^ e ≤ (2 ^ 53 - 1) * 2 ^ (971 : Int) := mul_le_mul h1 h2 (by positivity) (by norm_num)
  rw [e1] at h4
  rw [e2]
  generalize (2 : ℚ) ^ (970 : Int) = t at *
  clear e1 e2 h2
  generalize (m : ℚ) * 2 ^ e = u at *
  norm_num at h4 ⊢
  linarith

/-- C58 in binary64, for whole documents: a view box written in any layout and spelling is that of the drawing, each number rounded to the nearest; so
numbers of binary64 are exact. -/
theorem C58_float64 {fuel : Nat} {m : ErrorMode} {lead rest : List Token} {attrs : List Attr} {s : Svg F64} {msgs : List Msg} (hl : NoTags lead)
    (hn : ∀ a, Token.start "svg".toList a ∉ rest)
    (h : parse (F := F64) fuel m (lead ++ .start "svg".toList attrs :: rest) .eof = .done (some s) none msgs) (hd : Distinct attrs)
    {l : GroupList} (hw : l.WF) (hg : Given attrs "viewBox" l.text) {a b c d : ℚ} (hv : l.numbers.map Spelling.value = [a, b, c, d])
    (hb : ∀ q ∈ [a, b, c, d], |q| < 2 ^ (1024 : Int) - 2 ^ (970 : Int)) (hc : 1 / 2 ^ 1000 ≤ |c|) (hh : 1 / 2 ^ 1000 ≤ |d|)
    {W H : F64} (hW : NumAttr attrs "width" W) (hH : NumAttr attrs "height" H) :
    Nearest s.viewBox.x a ∧ Nearest s.viewBox.y b ∧ Nearest s.viewBox.w c ∧ Nearest s.viewBox.h d := by
  obtain ⟨vs, h1, h2⟩ := readAll_nearest l.numbers (groupList_numbers_wf hw) (fun n hn => hb _ (by rw [← hv]; exact List.mem_map_of_mem hn))
  have h3 : List.Forall₂ (fun x q => Nearest x q) (vs.map (· *. num 1)) [a, b, c, d] := by
    rw [← hv, List.forall₂_map_right_iff]
    exact h2
  rcases hA : vs.map (· *. num 1) with _ | ⟨x, _ | ⟨y, _ | ⟨w, _ | ⟨ht, _ | _⟩⟩⟩⟩ <;> rw [hA] at h3 <;> simp only [List.forall₂_cons, List.forall₂_nil_left_iff, List.forall₂_nil_right_iff, reduceCtorEq, and_false] at h3
  obtain ⟨n1, n2, n3, n4, -⟩ := h3
  have hbox := C58_document hl hn h hd (vb := ⟨x, y, w, ht⟩) (.inl ⟨_, hg, l, vs, rfl, hw, h1, hA.symm⟩) hW hH
  have ne : ∀ {x : F64} {q : ℚ}, Nearest x q → 1 / 2 ^ 1000 ≤ |q| → GoFloat.eq x (num 0) = false := by
    intro x q hx hq
    obtain ⟨p, hp, -⟩ := id hx
    by_contra hz
    rw [Bool.not_eq_false, is_eq_zero hp] at hz
    exact nearest_ne_zero hx hp hq hz
  rw [hbox]
  simp only [ne n3 hc, ne n4 hh, Bool.false_eq_true, if_false]
  exact ⟨n1, n2, n3, n4⟩

/-- The view box as the theorems about whole documents (C75, C80, C82, C83) ask for it. -/
theorem C58_box {fuel : Nat} {m : ErrorMode} {lead rest : List Token} {attrs : List Attr} {s : Svg F64} {msgs : List Msg} (hl : NoTags lead)
    (hn : ∀ a, Token.start "svg".toList a ∉ rest)
    (h : parse (F := F64) fuel m (lead ++ .start "svg".toList attrs :: rest) .eof = .done (some s) none msgs) (hd : Distinct attrs)
    {l : GroupList} (hw : l.WF) (hg : Given attrs "viewBox" l.text) {a b c d : ℚ} (hv : l.numbers.map Spelling.value = [a, b, c, d])
    (hr : ∀ q ∈ [a, b, c, d], Rep q) (hc : 1 / 2 ^ 1000 ≤ |c|) (hh : 1 / 2 ^ 1000 ≤ |d|)
    {W H : F64} (hW : NumAttr attrs "width" W) (hH : NumAttr attrs "height" H) : BoxIs s.viewBox a b c d := by
  have ex : ∀ {x : F64} {q : ℚ}, Nearest x q → Rep q → Is x q := by
    rintro x q ⟨p, h1, h2⟩ hq
    have := h2 q hq
    rw [sub_self, abs_zero, abs_nonpos_iff, sub_eq_zero] at this
    exact this ▸ h1
  obtain ⟨n1, n2, n3, n4⟩ := C58_float64 hl hn h hd hw hg hv (fun q hq => rep_bound (hr q hq)) hc hh hW hH
  exact ⟨ex n1 (hr _ (by simp)), ex n2 (hr _ (by simp)), ex n3 (hr _ (by simp)), ex n4 (hr _ (by simp))⟩

end

section Examples

attribute [local instance] asciiEnv
attribute [local instance] dummyLibm

set_option maxRecDepth 100000 in
/-- `viewBox=".1,-2 3 4"`, with a width: the first number is that of binary64 nearest to a tenth, the others are exact. -/
example : ∃ (s : Svg F64) (l : List Msg), parse (F := F64) 8 .strict ([] ++ .start "svg".toList (attrsOf [("viewBox", ".1,-2 3 4"), ("width", "6")]) ::
    (elem "g" [("width", "9"), ("viewBox", "5 5 5 5")] (elem "line" [("x2", "1")]) ++ [.stop "svg".toList])) .eof = .done (some s) none l ∧
      Nearest s.viewBox.x (1 / 10) ∧ Nearest s.viewBox.y (-2) ∧ Nearest s.viewBox.w 3 ∧ Nearest s.viewBox.h 4 := by
  have hp : (match parse (F := F64) 8 .strict ([] ++ .start "svg".toList (attrsOf [("viewBox", ".1,-2 3 4"), ("width", "6")]) ::
    (elem "g" [("width", "9"), ("viewBox", "5 5 5 5")] (elem "line" [("x2", "1")]) ++ [.stop "svg".toList])) .eof with
      | .done (some _) none _ => true | _ => false) = true := by decide +kernel
  split at hp
  · rename_i s l hs
    have big : (100 : ℚ) < 2 ^ (1024 : Int) - 2 ^ (970 : Int) := by
      simpa using rep_bound (q := 128) (by exact_mod_cast rep_nat (n := 128) (by norm_num)) |>.trans_le' (by norm_num : (100 : ℚ) ≤ |128|)
    have small : (1 : ℚ) / 2 ^ 1000 ≤ 1 := by rw [div_le_one (by positivity)]; exact one_le_pow₀ (by norm_num)
    have h6 : ∃ W : F64, parseBasicFloat "6".toList = .ok W := by
      have hq : (match parseBasicFloat (F := F64) "6".toList with | .ok _ => true | _ => false) = true := by decide +kernel
      split at hq
      · exact ⟨_, by assumption⟩
      · cases hq
    obtain ⟨W, hW⟩ := h6
    exact ⟨s, l, hs, C58_float64 (by decide) (noSvg_of (by decide +kernel)) hs (by decide)
      (l := ⟨[("".toList, ⟨⟨false, "".toList, some "1".toList, none⟩, []⟩), (",".toList, ⟨⟨true, "2".toList, none, none⟩, []⟩), int " " "3", int " " "4"], []⟩) (by decide +kernel) (by decide +kernel) (by decide +kernel)
      (fun q hq => lt_of_le_of_lt (b := 100) (by simp only [List.mem_cons, List.not_mem_nil, or_false] at hq; rcases hq with rfl | rfl | rfl | rfl <;> norm_num [abs_le]) big)
      (small.trans (by norm_num)) (small.trans (by norm_num))
      (.inl ⟨_, by decide, hW⟩) (.inr ⟨not_given (by decide), rfl⟩)⟩
  · cases hp

end Examples

end GoSvg
