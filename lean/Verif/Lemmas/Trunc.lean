import Verif.Lemmas.Real
import Verif.Spec.Fixed

namespace GoSvg

open Spec (IsTrunc InFixRange)

theorem truncR_isTrunc (v : ℝ) : IsTrunc v (truncR v) := by
  unfold IsTrunc truncR
  constructor
  · intro h
    rw [if_pos h]
    exact ⟨Int.floor_le v, Int.lt_floor_add_one v⟩
  · intro h
    rw [if_neg (not_le.2 h)]
    exact ⟨Int.le_ceil v, by linarith [Int.ceil_lt_add_one v]⟩

theorem isTrunc_unique {v : ℝ} {m n : ℤ} (hm : IsTrunc v m) (hn : IsTrunc v n) : m = n := by
  rcases le_or_gt 0 v with h | h
  · have a := hm.1 h; have b := hn.1 h
    have h1 : (m : ℝ) < n + 1 := lt_of_le_of_lt a.1 b.2
    have h2 : (n : ℝ) < m + 1 := lt_of_le_of_lt b.1 a.2
    have h1 : m < n + 1 := by exact_mod_cast h1
    have h2 : n < m + 1 := by exact_mod_cast h2
    omega
  · have a := hm.2 h; have b := hn.2 h
    have h1 : (m : ℝ) - 1 < n := lt_of_lt_of_le a.2 b.1
    have h2 : (n : ℝ) - 1 < m := lt_of_lt_of_le b.2 a.1
    have h1 : m - 1 < n := by exact_mod_cast h1
    have h2 : n - 1 < m := by exact_mod_cast h2
    omega

theorem truncR_int (n : ℤ) : truncR (n : ℝ) = n := by
  unfold truncR; split <;> simp

theorem truncR_bounds (v : ℝ) (lo hi : ℤ) (h1 : (lo : ℝ) ≤ v) (h2 : v < hi) (hl : lo ≤ 0) (hh : 0 ≤ hi) :
    lo ≤ truncR v ∧ (truncR v < hi ∨ truncR v = 0 ∧ v < 0) := by
  unfold truncR
  split
  · rename_i h
    refine ⟨Int.le_floor.2 h1, Or.inl (Int.floor_lt.2 h2)⟩
  · rename_i h
    have h := not_le.1 h
    refine ⟨?_, ?_⟩
    · have : (lo : ℝ) ≤ ⌈v⌉ := h1.trans (Int.le_ceil v)
      exact_mod_cast this
    · have : ⌈v⌉ ≤ 0 := Int.ceil_le.2 (by simpa using h.le)
      rcases this.lt_or_eq with h' | h'
      · left; omega
      · right; exact ⟨h', h⟩

theorem toI32_real (v : ℝ) (h1 : -2 ^ 31 ≤ v) (h2 : v < 2 ^ 31) : (GoFloat.toI32 v : ℤ) = truncR v := by
  have := truncR_bounds v (-2 ^ 31) (2 ^ 31) (by exact_mod_cast h1) (by exact_mod_cast h2) (by norm_num) (by norm_num)
  show (if -2 ^ 31 ≤ truncR v ∧ truncR v < 2 ^ 31 then truncR v else -2 ^ 31) = truncR v
  rw [if_pos]
  refine ⟨this.1, ?_⟩
  rcases this.2 with h | h
  · exact h
  · rw [h.1]; norm_num

theorem toI32_isTrunc (v : ℝ) (h1 : -2 ^ 31 ≤ v) (h2 : v < 2 ^ 31) : IsTrunc v (GoFloat.toI32 v) := by
  rw [toI32_real v h1 h2]; exact truncR_isTrunc v

theorem toI32_int (n : ℤ) (h1 : -2 ^ 31 ≤ n) (h2 : n < 2 ^ 31) : (GoFloat.toI32 (n : ℝ) : ℤ) = n := by
  rw [toI32_real _ (by exact_mod_cast h1) (by exact_mod_cast h2), truncR_int]

theorem toFix_real (v : ℝ) : toFix v = GoFloat.toI32 (v * 64) := by
  simp [toFix]

end GoSvg
