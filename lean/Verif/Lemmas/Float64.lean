import Verif.Model.F64
import Verif.Model.RealFloat
import Verif.Spec.Float64
import Verif.Lemmas.Trunc
import Verif.Lemmas.SpellingReal

/-! binary64: exactness and rounding errors of the model `F64`. -/

namespace GoSvg.F64

open Spec

theorem twoPow_eq (e : Int) : twoPow e = (2 : ℚ) ^ e := by
  unfold twoPow
  rcases lt_or_ge e 0 with h | h
  · rw [if_pos h]
    obtain ⟨n, rfl⟩ : ∃ n : Nat, e = -(n : Int) := ⟨e.natAbs, by omega⟩
    simp
  · rw [if_neg (by omega)]
    obtain ⟨n, rfl⟩ : ∃ n : Nat, e = (n : Int) := ⟨e.natAbs, by omega⟩
    simp

theorem two_zpow_pos (e : Int) : (0 : ℚ) < 2 ^ e := by positivity

/-- The binary logarithm of a positive rational. -/
theorem log_bounds {q : ℚ} (hq : 0 < q) : ∃ l : Int, (2 : ℚ) ^ l ≤ q ∧ q < 2 ^ (l + 1) ∧ lastPlace q = max (l - 52) (-1074) := by
  have hn : q.num.natAbs ≠ 0 := by
    have := Rat.num_pos.2 hq
    omega
  have hd : q.den ≠ 0 := q.den_nz
  have a1 : 2 ^ q.num.natAbs.log2 ≤ q.num.natAbs := Nat.log2_self_le hn
  have a2 : q.num.natAbs < 2 ^ (q.num.natAbs.log2 + 1) := Nat.lt_log2_self
  have b1 : 2 ^ q.den.log2 ≤ q.den := Nat.log2_self_le hd
  have b2 : q.den < 2 ^ (q.den.log2 + 1) := Nat.lt_log2_self
  have hqe : q = (q.num.natAbs : ℚ) / q.den := by
    have h1 : ((q.num.natAbs : Int) : ℚ) = q.num := by
      rw [Int.natAbs_of_nonneg (Rat.num_pos.2 hq).le]
    rw [Int.cast_natCast] at h1
    rw [h1]; exact (Rat.num_div_den q).symm
  have hdpos : (0 : ℚ) < q.den := by exact_mod_cast Nat.pos_of_ne_zero hd
  generalize ha : q.num.natAbs.log2 = a at a1 a2
  generalize hb : q.den.log2 = b at b1 b2
  have A1 : (2 : ℚ) ^ a ≤ q.num.natAbs := by exact_mod_cast a1
  have A2 : (q.num.natAbs : ℚ) < 2 ^ (a + 1) := by exact_mod_cast a2
  have B1 : (2 : ℚ) ^ b ≤ q.den := by exact_mod_cast b1
  have B2 : (q.den : ℚ) < 2 ^ (b + 1) := by exact_mod_cast b2
  have up : q < 2 ^ ((a : Int) - b + 1) := by
    rw [hqe, div_lt_iff₀ hdpos]
    calc (q.num.natAbs : ℚ) < 2 ^ (a + 1) := A2
      _ = 2 ^ ((a : Int) - b + 1) * 2 ^ b := by
        rw [← zpow_natCast, ← zpow_natCast, ← zpow_add₀ (by norm_num)]; congr 1; push_cast; ring
      _ ≤ _ := by apply mul_le_mul_of_nonneg_left B1; positivity
  have low : (2 : ℚ) ^ ((a : Int) - b - 1) ≤ q := by
    rw [hqe, le_div_iff₀ hdpos]
    calc (2 : ℚ) ^ ((a : Int) - b - 1) * q.den ≤ 2 ^ ((a : Int) - b - 1) * 2 ^ (b + 1) := by
          apply mul_le_mul_of_nonneg_left B2.le; positivity
      _ = 2 ^ a := by
        rw [← zpow_natCast, ← zpow_natCast, ← zpow_add₀ (by norm_num)]; congr 1; push_cast; ring
      _ ≤ _ := A1
  unfold lastPlace
  rw [ha, hb]
  dsimp only
  rw [twoPow_eq]
  by_cases h : q < 2 ^ ((a : Int) - b)
  · refine ⟨(a : Int) - b - 1, low, by simpa using h, ?_⟩
    rw [if_pos h]
  · refine ⟨(a : Int) - b, not_lt.1 h, up, ?_⟩
    rw [if_neg h]

/-- Rounding to an integer: exact for integers, within a half otherwise. -/
theorem roundNat_near {q : ℚ} (hq : 0 ≤ q) : |(roundNat q : ℚ) - q| ≤ 1 / 2 := by
  have hd : (0 : ℚ) < q.den := by exact_mod_cast q.den_pos
  have hqe : q = (q.num.natAbs : ℚ) / q.den := by
    have h1 : ((q.num.natAbs : Int) : ℚ) = q.num := by rw [Int.natAbs_of_nonneg (Rat.num_nonneg.2 hq)]
    rw [Int.cast_natCast] at h1
    rw [h1]; exact (Rat.num_div_den q).symm
  have hdiv : (q.den : ℚ) * (q.num.natAbs / q.den : Nat) + (q.num.natAbs % q.den : Nat) = q.num.natAbs := by
    exact_mod_cast Nat.div_add_mod q.num.natAbs q.den
  have hr : q.num.natAbs % q.den < q.den := Nat.mod_lt _ q.den_pos
  unfold roundNat
  dsimp only
  generalize q.num.natAbs / q.den = f at *
  generalize q.num.natAbs % q.den = r at *
  have hqf : q - f = (r : ℚ) / q.den := by
    have : q * q.den = q.den * f + r := by
      rw [hdiv]; exact (eq_div_iff hd.ne').1 hqe
    rw [eq_div_iff hd.ne']; linarith
  split
  · rename_i h
    have h2 : q.den ≤ r * 2 := by omega
    have h2' : (q.den : ℚ) ≤ r * 2 := by exact_mod_cast h2
    have h3 : (r : ℚ) ≤ q.den := by exact_mod_cast hr.le
    have e1 : (1 : ℚ) / 2 ≤ r / q.den := by rw [le_div_iff₀ hd]; linarith
    have e2 : (r : ℚ) / q.den ≤ 1 := by rw [div_le_iff₀ hd]; linarith
    push_cast
    rw [abs_le]; constructor <;> linarith
  · rename_i h
    have h2 : r * 2 ≤ q.den := by omega
    have h2' : (r : ℚ) * 2 ≤ q.den := by exact_mod_cast h2
    have e1 : (r : ℚ) / q.den ≤ 1 / 2 := by rw [div_le_iff₀ hd]; linarith
    have e2 : (0 : ℚ) ≤ r / q.den := by positivity
    rw [abs_le]; constructor <;> linarith

theorem roundNat_int (n : Nat) : roundNat (n : ℚ) = n := by
  unfold roundNat
  simp [Nat.mod_one]

/-- A finite number of that value. -/
def IsFin (s : Bool) (x : F64) (q : ℚ) : Prop := ∃ m e, x = .fin s m e ∧ (m < 2 ^ 53 ∧ -1074 ≤ e ∧ e ≤ 971) ∧ (m : ℚ) * 2 ^ e = q

theorem roundAbs_zero (s : Bool) : roundAbs s 0 = .fin s 0 (-1074) := by simp [roundAbs]

/-- What rounding a positive rational does, by the exponent `e` of its last place. -/
theorem roundAbs_pos {q : ℚ} (hq : 0 < q) (s : Bool) : ∃ (l e : Int) (m : Nat), (2 : ℚ) ^ l ≤ q ∧ q < 2 ^ (l + 1) ∧
    e = max (l - 52) (-1074) ∧ m = roundNat (q / 2 ^ e) ∧ m ≤ 2 ^ 53 ∧ (l - 52 = e → 2 ^ 52 ≤ m) ∧
    |(m : ℚ) * 2 ^ e - q| ≤ 2 ^ e / 2 ∧
    ((m : ℚ) * 2 ^ e < 2 ^ (1024 : Int) → IsFin s (roundAbs s q) (m * 2 ^ e)) := by
  obtain ⟨l, h1, h2, h3⟩ := log_bounds hq
  refine ⟨l, max (l - 52) (-1074), roundNat (q / 2 ^ max (l - 52) (-1074)), h1, h2, rfl, rfl, ?_⟩
  set e := max (l - 52) (-1074) with he
  have hp := two_zpow_pos e
  have hm : q / 2 ^ e < 2 ^ 53 := by
    rw [div_lt_iff₀ hp]
    refine h2.trans_le ?_
    rw [← zpow_natCast, ← zpow_add₀ (by norm_num)]
    apply zpow_le_zpow_right₀ (by norm_num)
    push_cast; omega
  have hnear := roundNat_near (q := q / 2 ^ e) (by positivity)
  have hle : roundNat (q / 2 ^ e) ≤ 2 ^ 53 := by
    have : (roundNat (q / 2 ^ e) : ℚ) < 2 ^ 53 + 1 := by
      have := (abs_le.1 hnear).2; linarith
    have : roundNat (q / 2 ^ e) < 2 ^ 53 + 1 := by exact_mod_cast this
    omega
  refine ⟨hle, ?_, ?_, ?_⟩
  · intro hle'
    have : (2 : ℚ) ^ 52 ≤ q / 2 ^ e := by
      rw [le_div_iff₀ hp]
      refine le_trans ?_ h1
      rw [← zpow_natCast, ← zpow_add₀ (by norm_num)]
      apply zpow_le_zpow_right₀ (by norm_num)
      push_cast; omega
    have h52 : (2 : ℚ) ^ 52 - 1 < (roundNat (q / 2 ^ e) : ℚ) := by
      have := (abs_le.1 hnear).1; linarith
    have : (2 : ℚ) ^ 52 < (roundNat (q / 2 ^ e) + 1 : Nat) := by push_cast; linarith
    have : 2 ^ 52 < roundNat (q / 2 ^ e) + 1 := by exact_mod_cast this
    omega
  · have : (roundNat (q / 2 ^ e) : ℚ) * 2 ^ e - q = (roundNat (q / 2 ^ e) - q / 2 ^ e) * 2 ^ e := by
      field_simp
    rw [this, abs_mul, abs_of_pos hp]
    nlinarith
  · intro hlt
    unfold roundAbs
    rw [if_neg hq.ne', h3]
    dsimp only
    rw [twoPow_eq]
    by_cases hm53 : roundNat (q / 2 ^ e) = 2 ^ 53
    · rw [if_pos hm53]
      dsimp only
      rw [hm53] at hlt
      have hlt' : (2 : ℚ) ^ (53 + e) < 2 ^ (1024 : Int) := by
        rw [zpow_add₀ (by norm_num)]; exact_mod_cast hlt
      have : 53 + e < 1024 := (zpow_lt_zpow_iff_right₀ (by norm_num)).1 hlt'
      rw [if_neg (by omega)]
      refine ⟨_, _, rfl, ⟨by norm_num, by omega, by omega⟩, ?_⟩
      rw [hm53, zpow_add₀ (by norm_num)]; push_cast; ring
    · rw [if_neg hm53]
      dsimp only
      have h971 : ¬ e > 971 := by
        intro h
        have hl : l - 52 = e := by omega
        have : (2 : ℚ) ^ 52 ≤ q / 2 ^ e := by
          rw [le_div_iff₀ hp]
          refine le_trans ?_ h1
          rw [← zpow_natCast, ← zpow_add₀ (by norm_num)]
          apply zpow_le_zpow_right₀ (by norm_num)
          push_cast; omega
        have h52 : (2 : ℚ) ^ 52 - 1 < (roundNat (q / 2 ^ e) : ℚ) := by
          have := (abs_le.1 hnear).1; linarith
        have : (2 : ℚ) ^ 52 < (roundNat (q / 2 ^ e) + 1 : Nat) := by push_cast; linarith
        have h52 : 2 ^ 52 < roundNat (q / 2 ^ e) + 1 := by exact_mod_cast this
        have h52 : (2 : ℚ) ^ 52 ≤ roundNat (q / 2 ^ e) := by exact_mod_cast Nat.lt_succ_iff.1 h52
        have hbig : (2 : ℚ) ^ (1024 : Int) ≤ roundNat (q / 2 ^ e) * 2 ^ e := by
          calc (2 : ℚ) ^ (1024 : Int) ≤ 2 ^ (52 + e) := zpow_le_zpow_right₀ (by norm_num) (by omega)
            _ = 2 ^ 52 * 2 ^ e := by rw [zpow_add₀ (by norm_num)]; norm_num
            _ ≤ _ := by apply mul_le_mul_of_nonneg_right h52 hp.le
        linarith
      rw [if_neg h971]
      exact ⟨_, _, rfl, ⟨by omega, by omega, by omega⟩, rfl⟩

theorem repAbs_lt {q : ℚ} (h : RepAbs q) : q < 2 ^ (1024 : Int) := by
  obtain ⟨m, e, hm, -, he, rfl⟩ := h
  have hm' : (m : ℚ) < 2 ^ 53 := by exact_mod_cast hm
  calc (m : ℚ) * 2 ^ e < 2 ^ 53 * 2 ^ e := by apply mul_lt_mul_of_pos_right hm' (two_zpow_pos e)
    _ ≤ 2 ^ 53 * 2 ^ (971 : Int) := by
      apply mul_le_mul_of_nonneg_left (zpow_le_zpow_right₀ (by norm_num) he); positivity
    _ = 2 ^ (1024 : Int) := by rw [← zpow_natCast, ← zpow_add₀ (by norm_num)]; norm_num

/-- Representable values are kept. -/
theorem roundAbs_exact {q : ℚ} (h : RepAbs q) (s : Bool) : IsFin s (roundAbs s q) q := by
  have h0 : 0 ≤ q := by obtain ⟨m, e, -, -, -, rfl⟩ := h; positivity
  rcases h0.eq_or_lt with rfl | hq
  · exact ⟨0, -1074, roundAbs_zero s, ⟨by norm_num, by norm_num, by norm_num⟩, by simp⟩
  · have hlt := repAbs_lt h
    obtain ⟨l, e, m, h1, h2, h3, h4, -, -, -, h5⟩ := roundAbs_pos hq s
    obtain ⟨m', e', hm', he', -, hqe⟩ := h
    -- q is an integer multiple of 2^e
    have hee : e ≤ e' := by
      have hm0 : m' ≠ 0 := by rintro rfl; simp [hqe] at hq
      have : (2 : ℚ) ^ l < 2 ^ (53 + e') := by
        refine h1.trans_lt ?_
        rw [hqe, zpow_add₀ (by norm_num)]
        apply mul_lt_mul_of_pos_right _ (two_zpow_pos e')
        exact_mod_cast hm'
      have := (zpow_lt_zpow_iff_right₀ (by norm_num)).1 this
      omega
    have hint : q / 2 ^ e = (m' * 2 ^ (e' - e).toNat : Nat) := by
      rw [hqe]
      push_cast
      rw [← zpow_natCast, Int.toNat_of_nonneg (by omega), div_eq_iff (two_zpow_pos e).ne', mul_assoc, ← zpow_add₀ (by norm_num)]
      congr 2; ring
    have hm2 : (m : ℚ) * 2 ^ e = q := by
      rw [h4, hint, roundNat_int, ← hint, div_mul_cancel₀ _ (two_zpow_pos e).ne']
    rw [hm2] at h5
    exact h5 hlt

/-- Rounding is to a nearest representable value. -/
theorem roundNat_nearest {q : ℚ} (hq : 0 ≤ q) (n : Int) : |(roundNat q : ℚ) - q| ≤ |(n : ℚ) - q| := by
  have h := roundNat_near hq
  by_cases hn : n = roundNat q
  · subst hn; simp
  · have h1 : (1 : ℚ) ≤ |(n : ℚ) - roundNat q| := by
      have : (1 : Int) ≤ |n - roundNat q| := Int.one_le_abs (by omega)
      have h' : ((1 : Int) : ℚ) ≤ ((|n - roundNat q| : Int) : ℚ) := by exact_mod_cast this
      rw [Int.cast_abs] at h'
      push_cast at h'
      exact h'
    have h2 : |(n : ℚ) - roundNat q| ≤ |(n : ℚ) - q| + |(roundNat q : ℚ) - q| := by
      have := abs_sub_le (n : ℚ) q (roundNat q)
      rw [abs_sub_comm q] at this
      exact this
    linarith

theorem roundAbs_nearest {q : ℚ} (hq : 0 < q) (hlt : q < 2 ^ (1024 : Int) - 2 ^ (970 : Int)) (s : Bool) :
    ∃ q', IsFin s (roundAbs s q) q' ∧ ∀ r, RepAbs r → |q' - q| ≤ |r - q| := by
  obtain ⟨l, e, m, h1, h2, h3, h4, hm, -, h5, h6⟩ := roundAbs_pos hq s
  have hp := two_zpow_pos e
  have near : ∀ n : Int, |(m : ℚ) * 2 ^ e - q| ≤ |(n : ℚ) * 2 ^ e - q| := by
    intro n
    have key : ∀ z : ℚ, |z * 2 ^ e - q| = |z - q / 2 ^ e| * 2 ^ e := by
      intro z
      have : z * 2 ^ e - q = (z - q / 2 ^ e) * 2 ^ e := by field_simp
      rw [this, abs_mul, abs_of_pos hp]
    rw [key, key, h4]
    exact mul_le_mul_of_nonneg_right (roundNat_nearest (by positivity) n) hp.le
  have hfin : (m : ℚ) * 2 ^ e < 2 ^ (1024 : Int) := by
    rcases lt_or_ge e 971 with he | he
    · have hm' : (m : ℚ) ≤ 2 ^ 53 := by exact_mod_cast hm
      calc (m : ℚ) * 2 ^ e ≤ 2 ^ 53 * 2 ^ e := by apply mul_le_mul_of_nonneg_right hm' hp.le
        _ = 2 ^ (53 + e) := by rw [zpow_add₀ (by norm_num)]; norm_num
        _ < _ := zpow_lt_zpow_right₀ (by norm_num) (by omega)
    · have hle : e ≤ 971 := by
        have : (2 : ℚ) ^ l < 2 ^ (1024 : Int) := by
          have h970 := two_zpow_pos 970
          exact h1.trans_lt (hlt.trans (sub_lt_self _ h970))
        have := (zpow_lt_zpow_iff_right₀ (by norm_num)).1 this
        omega
      obtain rfl : e = 971 := by omega
      have := (abs_le.1 h5).2
      have e1 : (2 : ℚ) ^ (971 : Int) = 2 * 2 ^ (970 : Int) := by rw [show (971 : Int) = 1 + 970 from rfl, zpow_add₀ (by norm_num)]; norm_num
      clear h6 h4 near hp h1 h2
      rw [e1] at this ⊢
      generalize (2 : ℚ) ^ (1024 : Int) = A at *
      generalize (2 : ℚ) ^ (970 : Int) = B at *
      linarith
  refine ⟨_, h6 hfin, ?_⟩
  rintro r ⟨m', e', hm', he', -, rfl⟩
  rcases le_or_gt e e' with hee | hee
  · have : (m' : ℚ) * 2 ^ e' = ((m' * 2 ^ (e' - e).toNat : Nat) : Int) * 2 ^ e := by
      push_cast
      rw [← zpow_natCast, Int.toNat_of_nonneg (by omega), mul_assoc, ← zpow_add₀ (by norm_num)]
      congr 2; ring
    rw [this]
    exact near _
  · -- smaller than the power of two below
    have hl : l - 52 = e := by omega
    have hr : (m' : ℚ) * 2 ^ e' ≤ 2 ^ l := by
      have hm2 : (m' : ℚ) ≤ 2 ^ 53 := by exact_mod_cast hm'.le
      calc (m' : ℚ) * 2 ^ e' ≤ 2 ^ 53 * 2 ^ e' := by apply mul_le_mul_of_nonneg_right hm2 (two_zpow_pos e').le
        _ = 2 ^ (53 + e') := by rw [zpow_add₀ (by norm_num)]; norm_num
        _ ≤ _ := zpow_le_zpow_right₀ (by norm_num) (by omega)
    have h52 : (2 : ℚ) ^ l = ((2 ^ 52 : Int) : ℚ) * 2 ^ e := by
      rw [← hl, zpow_sub₀ (by norm_num)]; push_cast; field_simp
    refine (near (2 ^ 52)).trans ?_
    rw [← h52, abs_of_nonpos (by linarith), abs_of_nonpos (by linarith)]
    linarith

/-! ### Exact operations -/

theorem is_of_fin {s : Bool} {x : F64} {q : ℚ} (h : IsFin s x q) : Is x (if s then -q else q) := by
  obtain ⟨m, e, rfl, hv, h⟩ := h
  refine ⟨s, m, e, rfl, hv, ?_⟩
  rw [h]

theorem is_val {x : F64} {q : ℚ} (h : Is x q) : x.val = q := by
  obtain ⟨s, m, e, rfl, -, rfl⟩ := h
  simp only [val, twoPow_eq]
  cases s <;> simp

theorem is_unique {x : F64} {p q : ℚ} (h : Is x p) (h' : Is x q) : p = q := (is_val h).symm.trans (is_val h')

theorem roundRat_exact (z : Bool) {q : ℚ} (h : Rep q) : Is (roundRat z q) q := by
  unfold roundRat
  split
  · rename_i h0
    exact ⟨z, 0, -1074, rfl, ⟨by norm_num, by norm_num, by norm_num⟩, by simp [h0]⟩
  · rename_i h0
    by_cases hn : q < 0
    · have h' : RepAbs (-q) := by unfold Rep at h; rwa [abs_of_neg hn] at h
      simp only [hn, decide_true, if_true]
      have := is_of_fin (roundAbs_exact h' true)
      simpa using this
    · have h' : RepAbs q := by unfold Rep at h; rwa [abs_of_nonneg (not_lt.1 hn)] at h
      simp only [hn, decide_false, if_false]
      have := is_of_fin (roundAbs_exact h' false)
      simpa using this

theorem is_add {x y : F64} {p q : ℚ} (hx : Is x p) (hy : Is y q) (h : Rep (p + q)) : Is (add x y) (p + q) := by
  have h1 := is_val hx
  have h2 := is_val hy
  obtain ⟨s, m, e, rfl, -⟩ := hx
  obtain ⟨t, n, f, rfl, -⟩ := hy
  simp only [add, h1, h2]
  exact roundRat_exact _ h

theorem is_neg {x : F64} {p : ℚ} (hx : Is x p) : Is (neg x) (-p) := by
  obtain ⟨s, m, e, rfl, hv, rfl⟩ := hx
  exact ⟨!s, m, e, rfl, hv, by cases s <;> simp⟩

theorem is_sub {x y : F64} {p q : ℚ} (hx : Is x p) (hy : Is y q) (h : Rep (p - q)) : Is (sub x y) (p - q) := by
  unfold sub
  rw [sub_eq_add_neg] at *
  exact is_add hx (is_neg hy) h

theorem is_mul {x y : F64} {p q : ℚ} (hx : Is x p) (hy : Is y q) (h : Rep (p * q)) : Is (mul x y) (p * q) := by
  have h1 := is_val hx
  have h2 := is_val hy
  obtain ⟨s, m, e, rfl, -⟩ := hx
  obtain ⟨t, n, f, rfl, -⟩ := hy
  simp only [mul, h1, h2]
  exact roundRat_exact _ h

/-- Multiples of a power of two that need at most 53 bits. -/
theorem rep_grid {k : Nat} (hk : k ≤ 1074) {n : Int} (hn : |n| < 2 ^ 53) : Rep ((n : ℚ) / 2 ^ k) := by
  rw [Int.abs_eq_natAbs] at hn
  refine ⟨n.natAbs, -(k : Int), by omega, by omega, by omega, ?_⟩
  rw [abs_div, abs_of_pos (by positivity : (0 : ℚ) < 2 ^ k), zpow_neg, zpow_natCast, ← div_eq_mul_inv]
  congr 1
  rw [← Int.cast_abs, Int.abs_eq_natAbs]; simp

theorem rep_zero : Rep 0 := by
  have := rep_grid (k := 0) (n := 0) (by norm_num) (by norm_num)
  simpa using this

theorem is_abs {x : F64} {q : ℚ} (h : Is x q) : ∃ (m : Nat) (e : Int), m < 2 ^ 53 ∧ -1074 ≤ e ∧ e ≤ 971 ∧ |q| = m * 2 ^ e := by
  obtain ⟨s, m, e, -, ⟨h1, h2, h3⟩, rfl⟩ := h
  refine ⟨m, e, h1, h2, h3, ?_⟩
  have : (0 : ℚ) ≤ m * 2 ^ e := by positivity
  cases s
  · simp only [Bool.false_eq_true, if_false]; exact abs_of_nonneg this
  · simp only [if_true, abs_neg]; exact abs_of_nonneg this

theorem is_rep {x : F64} {q : ℚ} (h : Is x q) : Rep q := is_abs h

/-- A power of two changes the exponent only. -/
theorem rep_mul_64 {q : ℚ} (hr : Rep q) (h : |q| < 2 ^ 53) : Rep (q * 64) := by
  obtain ⟨m, e, hm, he, he', habs⟩ := hr
  unfold Rep
  rw [abs_mul, habs]
  rcases le_or_gt e 965 with h6 | h6
  · refine ⟨m, e + 6, hm, by omega, by omega, ?_⟩
    rw [zpow_add₀ (by norm_num)]; norm_num; ring
  · by_cases hm0 : m = 0
    · refine ⟨0, 0, by norm_num, by norm_num, by norm_num, by simp [hm0]⟩
    · exfalso
      have hm1 : (1 : ℚ) ≤ m := by exact_mod_cast Nat.one_le_iff_ne_zero.2 hm0
      have : (2 : ℚ) ^ 53 ≤ m * 2 ^ e := by
        calc (2 : ℚ) ^ 53 = 2 ^ (53 : Int) := by norm_num
          _ ≤ 2 ^ e := zpow_le_zpow_right₀ (by norm_num) (by omega)
          _ ≤ m * 2 ^ e := le_mul_of_one_le_left (two_zpow_pos e).le hm1
      linarith

theorem trunc_of {x : F64} {q : ℚ} (h : Is x q) : x.trunc = q.num.tdiv q.den := by
  unfold trunc; rw [is_val h]

theorem rep_nat {n : Nat} (h : n < 2 ^ 53) : Rep (n : ℚ) := by
  have := rep_grid (k := 0) (n := (n : Int)) (by norm_num) (by rw [abs_of_nonneg (by omega)]; exact_mod_cast h)
  simpa using this

variable [Libm]

theorem is_num {q : ℚ} (h : Rep q) : Is (num q : F64) q := roundRat_exact _ h

theorem is_mul_one {x : F64} {q : ℚ} (h : Is x q) : Is (x *. (num 1 : F64)) q := by
  have h1 : Is (num 1 : F64) (1 : ℚ) := is_num (by simpa using rep_nat (n := 1) (by norm_num))
  have := is_mul h h1 (by rw [mul_one]; exact is_rep h)
  rw [mul_one] at this
  exact this

omit [Libm] in
/-- The quotient of numerator by denominator that drops the fraction is the truncation. -/
theorem tdiv_isTrunc (p : ℚ) : IsTrunc (p : ℝ) (p.num.tdiv p.den) := by
  have hdR : (0 : ℝ) < p.den := by exact_mod_cast p.den_pos
  have hpe : (p : ℝ) * p.den = p.num := by
    have : p * p.den = p.num := Rat.mul_den_eq_num p
    exact_mod_cast congrArg (fun z : ℚ => (z : ℝ)) this
  have hmod := Int.tdiv_mul_add_tmod p.num p.den
  have hmodR : ((p.num.tdiv p.den : Int) : ℝ) * p.den + (p.num.tmod p.den : Int) = p.num := by exact_mod_cast hmod
  constructor
  · intro h0
    have hn : 0 ≤ p.num := Rat.num_nonneg.2 (by exact_mod_cast h0)
    have a1 : 0 ≤ p.num.tmod p.den := Int.tmod_nonneg _ hn
    have a2 : p.num.tmod p.den < p.den := Int.tmod_lt_of_pos _ (by exact_mod_cast p.den_pos)
    have a1 : (0 : ℝ) ≤ (p.num.tmod p.den : Int) := by exact_mod_cast a1
    have a2 : ((p.num.tmod p.den : Int) : ℝ) < p.den := by exact_mod_cast a2
    constructor
    · by_contra hc
      have : (p : ℝ) * p.den < (p.num.tdiv p.den : Int) * p.den := mul_lt_mul_of_pos_right (not_le.1 hc) hdR
      linarith
    · by_contra hc
      have : ((p.num.tdiv p.den : Int) + 1 : ℝ) * p.den ≤ (p : ℝ) * p.den := mul_le_mul_of_nonneg_right (not_lt.1 hc) hdR.le
      linarith
  · intro h0
    have hn : p.num < 0 := Rat.num_neg.2 (by exact_mod_cast h0)
    have a1 : p.num.tmod p.den ≤ 0 := by
      have := Int.tmod_nonneg (a := -p.num) p.den (by omega)
      rw [Int.neg_tmod] at this; omega
    have a2 : -(p.den : Int) < p.num.tmod p.den := by
      have := Int.tmod_lt_of_pos (-p.num) (b := p.den) (by exact_mod_cast p.den_pos)
      rw [Int.neg_tmod] at this; omega
    have a1 : ((p.num.tmod p.den : Int) : ℝ) ≤ 0 := by exact_mod_cast a1
    have a2 : -(p.den : ℝ) < (p.num.tmod p.den : Int) := by exact_mod_cast a2
    constructor
    · by_contra hc
      have : ((p.num.tdiv p.den : Int) : ℝ) * p.den < p * p.den := mul_lt_mul_of_pos_right (not_le.1 hc) hdR
      linarith
    · by_contra hc
      have : (p : ℝ) * p.den ≤ ((p.num.tdiv p.den : Int) - 1 : ℝ) * p.den := mul_le_mul_of_nonneg_right (not_lt.1 hc) hdR.le
      linarith

/-- Converting a number of binary64 to an integer truncates its exact value. -/
theorem toI32_eq {x : F64} {q : ℚ} (h : Is x q) : GoFloat.toI32 x = GoFloat.toI32 (q : ℝ) := by
  have htr := trunc_of h
  have he := isTrunc_unique (tdiv_isTrunc q) (truncR_isTrunc (q : ℝ))
  obtain ⟨s, m, e, hfin, -, -⟩ := h
  rw [hfin] at htr ⊢
  change toSigned 31 _ = _
  unfold toSigned
  dsimp only
  rw [htr, he]
  rfl

/-- Storing a number of binary64 truncates its exact value. -/
theorem toFix_is {x : F64} {q : ℚ} (h : Is x q) (hq : |q| < 2 ^ 53) : toFix x = toFix (q : ℝ) := by
  have h64 : Is (num 64 : F64) (64 : ℚ) := is_num (by simpa using rep_nat (n := 64) (by norm_num))
  have hm := is_mul h h64 (rep_mul_64 (is_rep h) hq)
  rw [toFix_real]
  unfold toFix
  have := toI32_eq hm
  rw [Rat.cast_mul] at this
  exact_mod_cast this

omit [Libm] in
theorem absValue_nonneg (n : Spelling) : 0 ≤ n.absValue := by
  unfold Spelling.absValue
  apply mul_nonneg
  · apply add_nonneg (by positivity)
    split
    · positivity
    · exact le_refl _
  · split
    · positivity
    · positivity
    · norm_num

/-- Reading a decimal gives a nearest number. -/
theorem parse_nearest [GoEnv] {n : Spelling} (h : n.WF) (hlt : n.absValue < 2 ^ (1024 : Int) - 2 ^ (970 : Int)) :
    ∃ x, (GoFloat.parse n.text : Option F64) = some x ∧ Nearest x n.value := by
  have h0 : 0 ≤ n.absValue := absValue_nonneg n
  obtain ⟨q', hf, hn⟩ : ∃ q', IsFin n.neg (roundAbs n.neg n.absValue) q' ∧ ∀ r, RepAbs r → |q' - n.absValue| ≤ |r - n.absValue| := by
    rcases h0.eq_or_lt with h | h
    · rw [← h]
      refine ⟨0, ⟨0, -1074, roundAbs_zero _, ⟨by norm_num, by norm_num, by norm_num⟩, by simp⟩, fun r _ => by simp⟩
    · exact roundAbs_nearest h hlt _
  have hI := is_of_fin hf
  obtain ⟨m, e, hx, -, -⟩ := hf
  refine ⟨roundAbs n.neg n.absValue, ?_, ?_⟩
  · change F64.parse n.text = _
    unfold F64.parse
    rw [parseLit_dec (parseDec_text h)]
    simp only [hx]
  · refine ⟨_, hI, fun r hr => ?_⟩
    have h1 := hn _ hr
    have h2 : |(if n.neg = true then -q' else q') - n.value| = |q' - n.absValue| := by
      unfold Spelling.value
      cases n.neg
      · simp
      · simp only [if_true]
        rw [show -q' - -n.absValue = -(q' - n.absValue) by ring, abs_neg]
    have h3 : |n.value| = n.absValue := by
      unfold Spelling.value
      cases n.neg
      · simp [abs_of_nonneg h0]
      · simp [abs_of_nonneg h0]
    rw [h2]
    refine h1.trans ?_
    rw [← h3]
    exact abs_abs_sub_abs_le r n.value

/-- Reading a decimal whose value is representable is exact. -/
theorem parse_exact [GoEnv] {n : Spelling} (h : n.WF) (hr : Rep n.value) :
    ∃ x, (GoFloat.parse n.text : Option F64) = some x ∧ Is x n.value := by
  have h0 : 0 ≤ n.absValue := absValue_nonneg n
  have hr' : RepAbs n.absValue := by
    have : |n.value| = n.absValue := by
      unfold Spelling.value
      cases n.neg
      · simp [abs_of_nonneg h0]
      · simp [abs_of_nonneg h0]
    rw [← this]; exact hr
  have hf := roundAbs_exact hr' n.neg
  have hI := is_of_fin hf
  obtain ⟨m, e, hx, -, -⟩ := hf
  refine ⟨_, ?_, hI⟩
  change F64.parse n.text = _
  unfold F64.parse
  rw [parseLit_dec (parseDec_text h)]
  simp only [hx]

end GoSvg.F64
