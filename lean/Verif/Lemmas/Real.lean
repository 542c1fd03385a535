import Verif.Model.RealFloat
import Mathlib.Tactic.Ring
import Mathlib.Tactic.FieldSimp
import Mathlib.Tactic.Linarith
import Mathlib.Tactic.NormNum

/-! The operations of `F = ℝ` are the usual ones. -/

namespace GoSvg

section
variable (x y : ℝ)

@[simp] theorem real_add : (x +. y) = x + y := rfl
@[simp] theorem real_sub : (x -. y) = x - y := rfl
@[simp] theorem real_mul : (x *. y) = x * y := rfl
@[simp] theorem real_div : (x /. y) = x / y := rfl
@[simp] theorem real_neg : GoFloat.neg x = -x := rfl
@[simp] theorem real_num (q : Rat) : (num q : ℝ) = (q : ℝ) := rfl
@[simp] theorem real_ofRat (q : Rat) : (GoFloat.ofRat q : ℝ) = (q : ℝ) := rfl
@[simp] theorem real_piMul (q : Rat) : (GoFloat.piMul q : ℝ) = (q : ℝ) * Real.pi := rfl
@[simp] theorem real_ofInt (n : Int) : (GoFloat.ofInt n : ℝ) = (n : ℝ) := rfl
@[simp] theorem real_sin : GoFloat.sin x = Real.sin x := rfl
@[simp] theorem real_cos : GoFloat.cos x = Real.cos x := rfl
@[simp] theorem real_tan : GoFloat.tan x = Real.tan x := rfl
@[simp] theorem real_sqrt : GoFloat.sqrt x = Real.sqrt x := rfl
@[simp] theorem real_abs : GoFloat.abs x = |x| := rfl
@[simp] theorem real_atan2 : GoFloat.atan2 y x = Complex.arg ⟨x, y⟩ := rfl
@[simp] theorem real_lt : GoFloat.lt x y = true ↔ x < y := by simp [GoFloat.lt]
@[simp] theorem real_le : GoFloat.le x y = true ↔ x ≤ y := by simp [GoFloat.le]
@[simp] theorem real_eq : GoFloat.eq x y = true ↔ x = y := by simp [GoFloat.eq]
@[simp] theorem real_lt_false : GoFloat.lt x y = false ↔ y ≤ x := by simp [GoFloat.lt]
@[simp] theorem real_le_false : GoFloat.le x y = false ↔ y < x := by simp [GoFloat.le]
@[simp] theorem real_eq_false : GoFloat.eq x y = false ↔ x ≠ y := by simp [GoFloat.eq]

end

@[ext] theorem Matrix2D.ext' {F : Type} {m n : Matrix2D F} (ha : m.a = n.a) (hb : m.b = n.b) (hc : m.c = n.c)
    (hd : m.d = n.d) (he : m.e = n.e) (hf : m.f = n.f) : m = n := by
  cases m; cases n; simp_all

end GoSvg
