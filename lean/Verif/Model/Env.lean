import Verif.Model.Render
import Verif.Model.F64
import Verif.Model.ColorNames

/-! Concrete environments, used by examples only: ASCII-only Unicode tables with the colour names, a mathematical
library without precision, and a rasterx without extents. -/

namespace GoSvg

/-- The colour of an entry of the table. -/
def cssColor (e : String × Nat) : Color := ⟨e.2 / 65536, e.2 / 256 % 256, e.2 % 256, 255⟩

set_option maxRecDepth 10000 in
theorem cssColors_ok : ∀ e ∈ cssColors, (∀ ch ∈ e.1.toList, ch.isLower = true) ∧ e.1.toList ≠ "none".toList ∧
    hasPrefix e.1.toList "url".toList = false ∧ (cssColor e).r < 256 ∧ (cssColor e).g < 256 ∧ (cssColor e).b < 256 ∧ (cssColor e).a = 255 := by
  decide +kernel

/-- An environment that knows ASCII and the colour names. -/
def asciiEnv : GoEnv where
  isLetter := Char.isAlpha
  isNumber := Char.isDigit
  toLower := Char.toLower
  isLetter_ascii _ _ := rfl
  isNumber_ascii _ _ := rfl
  toLower_ascii _ _ := rfl
  letter_not_number c h := by
    simp only [Char.isAlpha, Char.isUpper, Char.isLower, Char.isDigit, Bool.or_eq_true, Bool.and_eq_true,
      decide_eq_true_eq, ge_iff_le, Bool.and_eq_false_iff, decide_eq_false_iff_not] at *
    rcases h with h | h
    · right; intro h2
      have := UInt32.le_trans h.1 h2
      exact absurd this (by decide)
    · right; intro h2
      have := UInt32.le_trans h.1 h2
      exact absurd this (by decide)
  colorName s := (cssColors.find? fun e => e.1.toList = s).map cssColor
  colorName_ok s c h := by
    obtain ⟨e, he, rfl⟩ := Option.map_eq_some_iff.1 h
    have hs : e.1.toList = s := by simpa using List.find?_some he
    subst hs
    exact cssColors_ok e (List.mem_of_find?_eq_some he)
  growCap n := if n = 0 then 1 else 2 * n
  growCap_gt n := by split <;> omega
  growCap_small _ _ := rfl

/-- A mathematical library of constants; for runs that do not use trigonometry in earnest. -/
def dummyLibm : Libm where
  sin _ := F64.roundRat false 0
  cos _ := F64.roundRat false 1
  tan _ := F64.roundRat false 0
  atan2 _ _ := F64.roundRat false 0
  piMul q := F64.roundRat false (q * 3.141592653589793)

end GoSvg
