import Verif.Lemmas.Float64
import Verif.Model.PathParse

/-! Zeros, infinities and NaN in the arithmetic of binary64, and what they make of the centre of an arc. -/

namespace GoSvg

namespace F64

/-- Zero or NaN. -/
def ZN : F64 → Prop
  | .nan => True
  | .inf _ => False
  | .fin _ m _ => m = 0

/-- Infinite or NaN. -/
def IN : F64 → Prop
  | .nan => True
  | .inf _ => True
  | .fin .. => False

/-- Not negative, or NaN. -/
def NN : F64 → Prop
  | .nan => True
  | .inf s => s = false
  | x@(.fin ..) => 0 ≤ x.val

theorem val_zero {s : Bool} {e : Int} : val (.fin s 0 e) = 0 := by simp [val]

theorem roundRat_zero (z : Bool) : roundRat z 0 = .fin z 0 (-1074) := by simp [roundRat]

@[simp] theorem add_nan_left (y : F64) : add .nan y = .nan := by cases y <;> rfl
@[simp] theorem add_nan_right (x : F64) : add x .nan = .nan := by cases x <;> rfl
@[simp] theorem sub_nan_left (y : F64) : sub .nan y = .nan := add_nan_left _
@[simp] theorem sub_nan_right (x : F64) : sub x .nan = .nan := add_nan_right _
@[simp] theorem mul_nan_left (y : F64) : mul .nan y = .nan := by cases y <;> rfl
@[simp] theorem mul_nan_right (x : F64) : mul x .nan = .nan := by cases x <;> rfl
@[simp] theorem div_nan_left (y : F64) : div .nan y = .nan := by cases y <;> rfl
@[simp] theorem div_nan_right (x : F64) : div x .nan = .nan := by cases x <;> rfl
@[simp] theorem lt_nan_left (y : F64) : lt .nan y = false := by cases y <;> rfl
@[simp] theorem lt_nan_right (x : F64) : lt x .nan = false := by cases x <;> rfl
@[simp] theorem eq_nan_left (y : F64) : eq .nan y = false := by cases y <;> rfl
@[simp] theorem eq_nan_right (x : F64) : eq x .nan = false := by cases x <;> rfl

theorem ZN.neg {x : F64} (h : ZN x) : ZN (neg x) := by cases x <;> first | exact h | exact h.elim

theorem ZN.mul_right {x : F64} (h : ZN x) (y : F64) : ZN (mul x y) := by
  match x, y, h with
  | .nan, y, _ => rw [mul_nan_left]; trivial
  | .fin .., .nan, _ => trivial
  | .fin s m e, .inf t, h => cases h; trivial
  | .fin s m e, .fin t n f, h =>
    cases h
    show ZN (roundRat _ _)
    rw [val_zero, Rat.zero_mul, roundRat_zero]; rfl

theorem mul_comm' (x y : F64) : mul x y = mul y x := by
  match x, y with
  | .nan, y => rw [mul_nan_left, mul_nan_right]
  | x, .nan => rw [mul_nan_left, mul_nan_right]
  | .inf s, .inf t => simp [mul, isZero, sign, bne_comm]
  | .inf s, .fin t n f => simp [mul, sign, bne_comm]
  | .fin t n f, .inf s => simp [mul, sign, bne_comm]
  | .fin s m e, .fin t n f => simp only [mul, Rat.mul_comm, sign, bne_comm]

theorem ZN.mul_left {x : F64} (h : ZN x) (y : F64) : ZN (mul y x) := by rw [mul_comm']; exact h.mul_right y

theorem ZN.div_right {x : F64} (h : ZN x) (y : F64) : ZN (div x y) := by
  match x, y, h with
  | .nan, y, _ => rw [div_nan_left]; trivial
  | .fin .., .nan, _ => trivial
  | .fin s m e, .inf t, h => rfl
  | .fin s m e, .fin t n f, h =>
    cases h
    show ZN (if isZero (.fin t n f) then _ else _)
    split
    · trivial
    · rw [val_zero, zero_div, roundRat_zero]; rfl

theorem ZN.add {x y : F64} (h : ZN x) (h' : ZN y) : ZN (add x y) := by
  match x, y, h, h' with
  | .nan, y, _, _ => rw [add_nan_left]; trivial
  | x, .nan, _, _ => rw [add_nan_right]; trivial
  | .fin s m e, .fin t n f, h, h' =>
    cases h; cases h'
    show ZN (roundRat _ _)
    rw [val_zero, val_zero, Rat.zero_add, roundRat_zero]; rfl

theorem ZN.sub {x y : F64} (h : ZN x) (h' : ZN y) : ZN (sub x y) := h.add h'.neg

theorem ZN.sqrt {x : F64} (h : ZN x) : ZN (sqrt x) := by
  match x, h with
  | .nan, _ => trivial
  | .fin s m e, h => cases h; simp [F64.sqrt, ZN]

/-- Division by zero. -/
theorem ZN.div_left {y : F64} (h : ZN y) (x : F64) : IN (div x y) := by
  match x, y, h with
  | x, .nan, _ => rw [div_nan_right]; trivial
  | .nan, .fin .., _ => trivial
  | .inf s, .fin .., _ => trivial
  | .fin s m e, .fin t n f, h =>
    cases h
    unfold F64.div
    simp only [isZero, beq_self_eq_true, if_true]
    by_cases hm : m = 0 <;> simp [hm, IN]

theorem ZN.div {x y : F64} (h : ZN x) (h' : ZN y) : div x y = .nan := by
  match x, y, h, h' with
  | .nan, y, _, _ => rw [div_nan_left]
  | x, .nan, _, _ => rw [div_nan_right]
  | .fin s m e, .fin t n f, h, h' => cases h; cases h'; rfl

theorem ZN.mul_in {x y : F64} (h : ZN x) (h' : IN y) : mul x y = .nan := by
  match x, y, h, h' with
  | .nan, y, _, _ => rw [mul_nan_left]
  | x, .nan, _, _ => rw [mul_nan_right]
  | .fin s m e, .inf t, h, _ => cases h; rfl

theorem IN.mul_left {y : F64} (h : IN y) (x : F64) : IN (mul x y) := by
  match x, y, h with
  | x, .nan, _ => rw [mul_nan_right]; trivial
  | .nan, .inf t, _ => trivial
  | .inf s, .inf t, _ => simp [mul, isZero, IN]
  | .fin s m e, .inf t, _ =>
    show IN (if _ then _ else _)
    split <;> trivial

theorem IN.div_right {x : F64} (h : IN x) (y : F64) : IN (div x y) := by
  match x, y, h with
  | .nan, y, _ => rw [div_nan_left]; trivial
  | .inf _, .nan, _ => trivial
  | .inf s, .inf t, _ => trivial
  | .inf s, .fin .., _ => trivial

theorem twoPow_nonneg (e : Int) : 0 ≤ twoPow e := by
  rw [twoPow_eq]; positivity

theorem roundRat_nn (z : Bool) {q : Rat} (h : 0 ≤ q) : NN (roundRat z q) := by
  unfold roundRat
  split
  · show 0 ≤ val _; rw [val_zero]
  · rw [if_neg (not_lt.2 h), decide_eq_false (not_lt.2 h)]
    unfold roundAbs
    split
    · show 0 ≤ val _; rw [val_zero]
    · dsimp only
      generalize ite (roundNat _ = _) _ _ = me
      split
      · rfl
      · show 0 ≤ val _
        simp only [val, Bool.false_eq_true, if_false]
        exact mul_nonneg (by positivity) (twoPow_nonneg _)

theorem nn_sq (x : F64) : NN (mul x x) := by
  match x with
  | .nan => trivial
  | .inf s => simp [mul, isZero, sign, NN]
  | .fin s m e => exact roundRat_nn _ (mul_self_nonneg _)

theorem NN.not_lt_zn {x y : F64} (h : NN x) (h' : ZN y) : lt x y = false := by
  match x, y, h, h' with
  | .nan, y, _, _ => rw [lt_nan_left]
  | x, .nan, _, _ => rw [lt_nan_right]
  | .inf s, .fin .., h, _ => exact h
  | .fin s m e, .fin t n f, h, h' =>
    cases h'
    show decide _ = false
    rw [val_zero]
    exact decide_eq_false (not_lt.2 h)

/-- What is not above zero but a sum of a zero and a square is zero or NaN. -/
theorem zn_of_not_lt {x y : F64} (hx : ZN x) (hx' : x ≠ .nan) (hy : NN y) (h : lt x y = false) : ZN y := by
  match x, y, hx, hy with
  | .nan, _, _, _ => exact absurd rfl hx'
  | .fin s m e, .nan, _, _ => trivial
  | .fin s m e, .inf t, hx, hy => cases hy; cases h
  | .fin s m e, .fin t n f, hx, hy =>
    cases hx
    have h1 := of_decide_eq_false h
    rw [val_zero] at h1
    have h2 : val (.fin t n f) = 0 := le_antisymm (not_lt.1 h1) hy
    have := twoPow_eq f
    simp only [val, mul_eq_zero] at h2
    rcases h2 with (h2 | h2) | h2
    · split at h2 <;> norm_num at h2
    · exact_mod_cast h2
    · rw [this] at h2; exact absurd h2 (by positivity)

theorem NN.add {x y : F64} (h : NN x) (h' : NN y) : NN (add x y) := by
  match x, y, h, h' with
  | .nan, y, _, _ => rw [add_nan_left]; trivial
  | x, .nan, _, _ => rw [add_nan_right]; trivial
  | .inf s, .inf t, h, h' => cases h; cases h'; rfl
  | .inf s, .fin .., h, _ => exact h
  | .fin .., .inf t, _, h => exact h
  | .fin s m e, .fin t n f, h, h' => exact roundRat_nn _ (add_nonneg h h')

theorem sq_inf (s : Bool) : mul (.inf s) (.inf s) = .inf false := by simp [mul, isZero, sign]

theorem inf_add {y : F64} (h : NN y) : add (.inf false) y = .inf false ∨ add (.inf false) y = .nan := by
  match y, h with
  | .nan, _ => exact .inr rfl
  | .inf s, h => cases h; exact .inl rfl
  | .fin .., _ => exact .inl rfl

theorem NN.not_lt_inf {x : F64} (h : NN x) (h' : lt x (.inf false) = false) : x = .nan ∨ x = .inf false := by
  match x, h with
  | .nan, _ => exact .inl rfl
  | .inf s, h => cases h; exact .inr rfl
  | .fin .., _ => cases h'

end F64

open F64

section
variable [Libm]

/-- The cases in which the centre is nowhere: the end points coincide, or a radius is zero. -/
def NoCentre (ra rb startX startY endX endY : F64) : Prop :=
  (ZN (sub endX startX) ∧ ZN (sub endY startY)) ∨ ZN ra ∨ ZN rb

theorem num_zn : ZN (num 0 : F64) := by show ZN (roundRat false _); norm_num [roundRat_zero, ZN]

/-- In all these cases both coordinates of the centre are NaN. -/
theorem centre_nan {ra rb startX startY endX endY : F64} (h : NoCentre ra rb startX startY endX endY) (rotX : F64) (sweep small : Bool) :
    (findEllipseCenter ra rb rotX startX startY endX endY sweep small).cx = .nan ∧
    (findEllipseCenter ra rb rotX startX startY endX endY sweep small).cy = .nan := by
  -- the ends, in the frame of the ellipse
  have key : ∀ nx ny two : F64, (ZN nx ∧ ZN ny) ∨ ZN ra ∨ ZN rb →
      let midX := div (mul nx (div rb ra)) two
      let midY := div ny two
      let sq := add (mul midX midX) (mul midY midY)
      let r : F64 × F64 × F64 := if lt (mul rb rb) sq then
          (if eq ra rb then F64.sqrt sq else div (mul ra (F64.sqrt sq)) rb, F64.sqrt sq, num 0)
        else (ra, rb, div (F64.sqrt (sub (mul rb rb) sq)) (F64.sqrt sq))
      let c : F64 × F64 := if (sweep && small) || (!sweep && !small) then
          (add midX (mul midY r.2.2), sub midY (mul midX r.2.2))
        else (sub midX (mul midY r.2.2), add midY (mul midX r.2.2))
      mul c.1 (div r.1 r.2.1) = .nan ∨ c.2 = .nan := by
    intro nx ny two h midX midY sq r c
    have hnan : r.2.2 = .nan → c.2 = .nan := by
      intro h
      simp only [c, h]
      split <;> simp
    have hsq : NN sq := (nn_sq _).add (nn_sq _)
    rcases h with ⟨h1, h2⟩ | h | h
    · -- coinciding ends
      have g1 : ZN midX := (h1.mul_right _).div_right _
      have g2 : ZN midY := h2.div_right _
      have g3 : ZN sq := (g1.mul_right _).add (g2.mul_right _)
      have hr : r = (ra, rb, div (F64.sqrt (sub (mul rb rb) sq)) (F64.sqrt sq)) := by
        show (if _ then _ else _) = _
        rw [(nn_sq rb).not_lt_zn g3]; rfl
      have g4 : IN r.2.2 := by rw [hr]; exact g3.sqrt.div_left _
      right
      simp only [c, g1.mul_in g4]
      split <;> simp
    · -- the first radius is zero
      have g1 : IN midX := ((h.div_left rb).mul_left nx).div_right _
      by_cases hb : lt (mul rb rb) sq = true
      · have hr : r.2.2 = num 0 := by
          show Prod.snd (Prod.snd (if _ then _ else _)) = _
          rw [if_pos hb]
        right
        have : mul midX (num 0) = .nan := by rw [mul_comm']; exact num_zn.mul_in g1
        simp only [c, hr, this]
        split <;> simp
      · rw [Bool.not_eq_true] at hb
        have hr : r.2.2 = div (F64.sqrt (sub (mul rb rb) sq)) (F64.sqrt sq) := by
          show Prod.snd (Prod.snd (if _ then _ else _)) = _
          rw [hb]; rfl
        right
        apply hnan
        rw [hr]
        have hs : sq = .inf false ∨ sq = .nan := by
          match hm : midX, g1 with
          | .nan, _ => right; show add (mul midX midX) _ = _; rw [hm]; simp
          | .inf s, _ =>
            have : sq = add (.inf false) (mul midY midY) := by show add (mul midX midX) _ = _; rw [hm, sq_inf]
            rw [this]; exact inf_add (nn_sq _)
        rcases hs with hs | hs
        · rw [hs] at hb ⊢
          rcases (nn_sq rb).not_lt_inf hb with h | h <;> rw [h] <;> simp [F64.sqrt, sub, F64.neg, F64.add]
        · rw [hs]; simp [F64.sqrt]
    · -- the second radius is zero
      have g1 : ZN midX := ((h.div_right ra).mul_left nx).div_right _
      by_cases hb : lt (mul rb rb) sq = true
      · left
        have he : eq ra rb = false := by
          by_contra he
          rw [Bool.not_eq_false] at he
          have hz : ZN ra := by
            match ra, rb, h, he with
            | .nan, _, _, _ => trivial
            | .inf s, .nan, _, he => cases he
            | .inf s, .fin .., _, he => cases he
            | .fin s m e, .nan, _, he => trivial
            | .fin s m e, .fin t n f, h, he =>
              cases h
              have h1 : val (.fin s m e) = 0 := by
                have := of_decide_eq_true he; rwa [val_zero] at this
              have h2 : lt (.fin false 0 (-1074)) (.fin false m e) = false := by
                apply decide_eq_false
                rw [val_zero]
                simp only [val, mul_eq_zero] at h1 ⊢
                rcases h1 with (h1 | h1) | h1
                · split at h1 <;> norm_num at h1
                · rw [h1]; simp
                · rw [h1]; simp
              exact zn_of_not_lt (y := .fin false m e) (show ZN (.fin false 0 (-1074)) from rfl) (by simp)
                (by show 0 ≤ val _; simp only [val, Bool.false_eq_true, if_false]; exact mul_nonneg (by positivity) (twoPow_nonneg _)) h2
          have hm : midX = .nan := by
            show div (mul nx (div rb ra)) two = _
            rw [h.div hz]; simp
          have : sq = .nan := by show add (mul midX midX) _ = _; rw [hm]; simp
          rw [this] at hb; simp at hb
        have hr : r = (div (mul ra (F64.sqrt sq)) rb, F64.sqrt sq, num 0) := by
          show (if _ then _ else _) = _
          rw [if_pos hb, he]; rfl
        have g2 : ZN c.1 := by
          have := num_zn.mul_left midY
          simp only [c, hr]
          split
          · exact g1.add this
          · exact g1.sub this
        rw [hr]
        exact g2.mul_in ((h.div_left _).div_right _)
      · rw [Bool.not_eq_true] at hb
        right
        apply hnan
        have hr : r.2.2 = div (F64.sqrt (sub (mul rb rb) sq)) (F64.sqrt sq) := by
          show Prod.snd (Prod.snd (if _ then _ else _)) = _
          rw [hb]; rfl
        rw [hr]
        by_cases hn : mul rb rb = .nan
        · rw [hn]; simp [F64.sqrt]
        · have h2 := h.mul_right rb
          have h3 := zn_of_not_lt h2 hn hsq hb
          exact (h2.sub h3).sqrt.div h3.sqrt
  have h' : ∀ c s : F64, (ZN (add (mul (sub endX startX) c) (mul (sub endY startY) s)) ∧
      ZN (add (mul (F64.neg (sub endX startX)) s) (mul (sub endY startY) c))) ∨ ZN ra ∨ ZN rb := by
    intro c s
    rcases h with ⟨h1, h2⟩ | h
    · exact .inl ⟨(h1.mul_right _).add (h2.mul_right _), (h1.neg.mul_right _).add (h2.mul_right _)⟩
    · exact .inr h
  have hk := key _ _ (num 2) (h' (Libm.cos rotX) (Libm.sin rotX))
  have back : ∀ cx cy a b start : F64, cx = .nan ∨ cy = .nan → ∀ g : F64 → F64 → F64, (g = F64.add ∨ g = F64.sub) →
      add (g (mul cx a) (mul cy b)) start = .nan := by
    rintro cx cy a b start (rfl | rfl) g (rfl | rfl) <;> simp
  exact ⟨back _ _ (Libm.cos rotX) (Libm.sin rotX) startX hk F64.sub (.inr rfl),
    back _ _ (Libm.sin rotX) (Libm.cos rotX) startY hk F64.add (.inl rfl)⟩

/-- What is assumed of the library functions: NaN in, NaN out. -/
class NanLibm : Prop where
  sin : Libm.sin .nan = .nan
  cos : Libm.cos .nan = .nan
  atan2 : Libm.atan2 .nan .nan = .nan

/-- Without a centre no cubic is added and the start is the new current point. -/
theorem addArc_nan [NanLibm] (p : ArcArgs F64) (px py : F64) : addArc p .nan .nan px py = ([], px, py) := by
  have h1 : (arcDeltaEta p .nan .nan px py).2 = .nan := by
    have e : ∀ a b : F64, GoFloat.atan2 (a -. .nan) (b -. .nan) -. (p.rot *. GoFloat.piMul 1 /. num 180) = .nan := by
      intro a b
      show F64.sub (Libm.atan2 (F64.sub a .nan) (F64.sub b .nan)) _ = _
      simp [NanLibm.atan2]
    have e2 : GoFloat.atan2 (GoFloat.sin (.nan : F64) /. p.ry) (GoFloat.cos (.nan : F64) /. p.rx) = .nan := by
      show Libm.atan2 (F64.div (Libm.sin .nan) _) (F64.div (Libm.cos .nan) _) = _
      simp [NanLibm.atan2, NanLibm.sin, NanLibm.cos]
    have hd : ∀ (c1 c2 : Bool) (d : F64), d = .nan →
        (if GoFloat.lt (if c1 then (if GoFloat.lt d (num 0) then d +. GoFloat.piMul 2 else d -. GoFloat.piMul 2) else d) (num 0) && c2
          then (if c1 then (if GoFloat.lt d (num 0) then d +. GoFloat.piMul 2 else d -. GoFloat.piMul 2) else d) +. GoFloat.piMul 2
         else if GoFloat.le (num 0) (if c1 then (if GoFloat.lt d (num 0) then d +. GoFloat.piMul 2 else d -. GoFloat.piMul 2) else d) && !c2
          then (if c1 then (if GoFloat.lt d (num 0) then d +. GoFloat.piMul 2 else d -. GoFloat.piMul 2) else d) -. GoFloat.piMul 2
         else (if c1 then (if GoFloat.lt d (num 0) then d +. GoFloat.piMul 2 else d -. GoFloat.piMul 2) else d)) = (.nan : F64) := by
      rintro c1 c2 d rfl
      have a1 : ∀ y : F64, (.nan : F64) +. y = .nan := add_nan_left
      have a2 : ∀ y : F64, (.nan : F64) -. y = .nan := sub_nan_left
      rw [a1, a2, ite_self, ite_self, a1, a2]
      simp
    refine hd _ _ _ ?_
    rw [e, e2]
    exact sub_nan_left _
  have h2 : arcSegs (F64.nan) = -2 ^ 63 + 1 := by
    have : GoFloat.abs (F64.nan) /. GoFloat.piMul (1 / 8) = .nan := div_nan_left _
    unfold arcSegs
    rw [this]
    show wrap64 (F64.toSigned 63 .nan + 1) = _
    decide
  unfold addArc
  simp only [h1, h2]
  rfl

end

end GoSvg
