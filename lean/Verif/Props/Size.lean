import Verif.Lemmas.OpCountDoc
import Verif.Lemmas.Laughs
import Verif.Lemmas.Arc
import Verif.Lemmas.Docs
import Verif.Props.Shapes

/-! C43: how many operations a document can produce. -/

namespace GoSvg

open Spec

/-! ### `use` -/

section
variable (F : Type) [GoFloat F] [GoEnv]

/-- C43 is false: for every `k` there is a document of at most 80 (k + 1)² characters from which 2^(k + 1) operations are produced,
in every mode and whatever the arithmetic. -/
theorem C43_false (k : Nat) (mode : ErrorMode) : ∃ (fuel : Nat) (doc : List Token) (s : Svg F),
    parse fuel mode doc .eof = .done (some s) none [] ∧ docSize doc ≤ 80 * (k + 1) * (k + 1) ∧ opsOf s = 2 ^ (k + 1) := by
  obtain ⟨s, h1, h2⟩ := laughs_ops (F := F) k mode
  exact ⟨_, _, s, h1, laughs_size k, h2⟩

/-- So no linear bound holds, nor any polynomial one. -/
theorem C43_polynomial_false (a n : Nat) (mode : ErrorMode) : ¬ ∀ (fuel : Nat) (doc : List Token) (s : Svg F),
    parse fuel mode doc .eof = .done (some s) none [] → opsOf s ≤ a * docSize doc ^ n := by
  intro h
  have key : ∀ k : Nat, 2 ^ (k + 1) ≤ a * (80 * (k + 1) * (k + 1)) ^ n := by
    intro k
    obtain ⟨fuel, doc, s, h1, h2, h3⟩ := C43_false F k mode
    rw [← h3]
    exact (h fuel doc s h1).trans (Nat.mul_le_mul_left _ (Nat.pow_le_pow_left h2 n))
  have lim := tendsto_pow_const_div_const_pow_of_one_lt (2 * n) (r := (2 : ℝ)) (by norm_num)
  have lim2 := lim.const_mul ((a : ℝ) * 80 ^ n)
  rw [mul_zero] at lim2
  obtain ⟨k, hk0, hk⟩ := ((lim2.eventually (gt_mem_nhds (zero_lt_one' ℝ))).and (Filter.eventually_ge_atTop 1)).exists
  obtain ⟨j, rfl⟩ : ∃ j, k = j + 1 := ⟨k - 1, by omega⟩
  have hj : (2 : ℝ) ^ (j + 1) ≤ a * (80 * (j + 1) * (j + 1)) ^ n := by exact_mod_cast key j
  have hp : (0 : ℝ) < 2 ^ (j + 1) := by positivity
  rw [← mul_div_assoc, div_lt_one hp] at hk0
  have e : (a : ℝ) * (80 * (j + 1) * (j + 1)) ^ n = a * 80 ^ n * ((j + 1 : ℕ) : ℝ) ^ (2 * n) := by
    push_cast
    rw [pow_mul, mul_assoc 80, mul_pow, pow_two, ← mul_assoc]
  rw [e] at hj
  linarith

end

/-! ### Without `use` -/

section
variable {F : Type} [GoFloat F] [GoEnv]

/-- C43 for documents without `use`, and without polylines or polygons that lack points: at most 2 M operations per character,
where M bounds the operations of one arc and of one rounded rectangle; also when parsing ends with an error. Missing for the full
claim: the documents left out, for which it is false. -/
theorem C43_no_use_partial {M : Nat} (hM : FewCurves F M) {fuel : Nat} {mode : ErrorMode} {doc : List Token} {fin : StreamEnd}
    {s : Svg F} {e : Option Err} {log : List Msg} (hd : NoReuse doc) (h : parse fuel mode doc fin = .done (some s) e log) :
    opsOf s ≤ 2 * M * docSize doc := by
  have hb := tokens_held hM fuel doc hd (initCursor mode)
  have h0 : heldOps (initCursor (F := F) mode) = 0 := rfl
  unfold parse at h
  rcases hr : readTokens fuel doc (initCursor (F := F) mode) with ⟨r, c⟩
  rw [hr] at h hb
  have hs : s = c.svg := by
    cases r with
    | ok u =>
      cases fin with
      | error e => cases h; rfl
      | eof => dsimp only at h; split at h <;> cases h; rfl
    | err e => cases h; rfl
    | _ => cases h
  rw [h0] at hb
  unfold heldOps at hb
  rw [hs]
  dsimp only at hb
  omega

end

/-! ### Arcs in exact arithmetic -/

theorem ellLoop_length (p : ArcArgs ℝ) (cx cy s c η δ α : ℝ) : ∀ (n i : Nat) (lx ly ldx ldy : ℝ),
    (ellLoop p cx cy s c η δ α n i lx ly ldx ldy).1.length = n
  | 0, _, _, _, _, _ => rfl
  | n + 1, i, lx, ly, ldx, ldy => by
    rw [ellLoop]
    simp [ellLoop_length p cx cy s c η δ α n]

theorem circLoop_length (m : Matrix2D ℝ) (a : Pt) (t d r : ℝ) (α : Int) : ∀ (n i : Nat) (s l : Pt), (circLoop m a t d r α n i s l).length = n
  | 0, _, _, _ => rfl
  | n + 1, i, s, l => by rw [circLoop]; simp [circLoop_length m a t d r α n]

theorem raise_within : ∀ (fuel : Nat) {t l x : ℝ}, raise fuel t l = some x → t < l + 2 * Real.pi → l ≤ x ∧ x < l + 2 * Real.pi
  | 0, t, l, x, h, ht => by
    rw [raise.eq_def] at h
    dsimp only at h
    by_cases hl : t < l
    · rw [if_pos ((real_lt _ _).2 hl)] at h; cases h
    · rw [if_neg (fun hh => hl ((real_lt _ _).1 hh))] at h
      cases h
      exact ⟨not_lt.1 hl, ht⟩
  | fuel + 1, t, l, x, h, ht => by
    by_cases hl : t < l
    · rw [raise.eq_def] at h
      dsimp only at h
      rw [if_pos ((real_lt _ _).2 hl), real_add, real_piMul] at h
      norm_num at h
      exact raise_within fuel h (by linarith)
    · rw [raise.eq_def] at h
      dsimp only at h
      rw [if_neg (fun hh => hl ((real_lt _ _).1 hh))] at h
      cases h
      exact ⟨not_lt.1 hl, ht⟩

theorem roundGap_few {fuel : Nat} {m : Matrix2D ℝ} {a t l : Pt} {g : Path} (h : roundGap fuel m a t l = some g) : g.length ≤ 19 := by
  unfold roundGap addArcCirc at h
  simp only [Bool.not_true, Bool.false_eq_true, if_false, Option.map_map, Option.map_eq_some_iff] at h
  obtain ⟨x, hx, rfl⟩ := h
  have hw := raise_within fuel hx (by
    simp only [real_atan2]
    have h1 := fun z : ℂ => Complex.arg_le_pi z
    have h2 := fun z : ℂ => Complex.neg_pi_lt_arg z
    generalize Complex.mk _ _ = z1, Complex.mk _ _ = z2
    linarith [h1 z1, h1 z2, h2 z1, h2 z2])
  generalize (GoFloat.atan2 (GoFloat.ofInt (wrap32 ((a.add t).y - a.y))) (GoFloat.ofInt (wrap32 ((a.add t).x - a.x))) : ℝ) = u at hw
  have ha : |x - u| ≤ 2 * Real.pi := by rw [abs_le]; constructor <;> linarith [Real.pi_pos]
  obtain ⟨n, h1, -, h2, -⟩ := arcSegs_spec ha
  simp only [Function.comp, gt_iff_lt, lt_self_iff_false, if_false, List.length_append, List.length_cons, List.length_nil, circLoop_length]
  change 0 + 1 + (arcSegs (x - u)).toNat + (0 + 1) ≤ 19
  rw [h1]
  simp
  omega

theorem few_real : FewCurves ℝ 100 where
  two := by norm_num
  arc p cx cy px py := by
    unfold addArc
    dsimp only
    rw [ellLoop_length]
    have h := (arcDeltaEta_real p cx cy px py).2.2
    have hd : |(arcDeltaEta p cx cy px py).2| ≤ 2 * Real.pi := by
      rw [abs_le]
      split at h <;> constructor <;> linarith [Real.pi_pos]
    obtain ⟨n, h1, -, h2, -⟩ := arcSegs_spec hd
    rw [h1]
    simp
    omega
  rect fuel a b c d e f g ops h := by
    unfold addRoundRect at h
    split at h
    · cases h; simp [addRect]
    · dsimp only at h
      split at h
      · rename_i g1 g2 g3 g4 h1 h2 h3 h4
        have h1 := roundGap_few h1
        have h2 := roundGap_few h2
        have h3 := roundGap_few h3
        have h4 := roundGap_few h4
        cases h
        simp only [List.length_append, List.length_cons, List.length_nil]
        omega
      · cases h

/-- C43 in exact arithmetic, for documents without `use` and without polylines or polygons that lack points. -/
theorem C43_no_use_real_partial [GoEnv] {fuel : Nat} {mode : ErrorMode} {doc : List Token} {fin : StreamEnd}
    {s : Svg ℝ} {e : Option Err} {log : List Msg} (hd : NoReuse doc) (h : parse fuel mode doc fin = .done (some s) e log) :
    opsOf s ≤ 200 * docSize doc :=
  C43_no_use_partial few_real hd h

end GoSvg

namespace GoSvg

open Spec

section Examples

attribute [local instance] asciiEnv
attribute [local instance] dummyLibm

/-- A document with a mask, a path and a polygon. -/
def sizeDoc : List Token :=
  elem "svg" [] (elem "mask" [("id", "m")] (elem "path" [("d", "M0 0L4 4Q1 2 3 4")] []) ++
    elem "polygon" [("points", "0 0 1 0 1 1 0 1")] [])

/-- Whether an element draws only what it names. -/
def drawsOwn : Token → Bool
  | .start name attrs => name ≠ "use".toList ∧ (name = "polyline".toList ∨ name = "polygon".toList → attrs.any fun a => a.name = "points".toList)
  | _ => true

theorem noReuse_of {ts : List Token} (h : ts.all drawsOwn = true) : NoReuse ts := by
  intro t ht name attrs e
  have := List.all_eq_true.1 h t ht
  rw [e] at this
  simp only [drawsOwn, decide_eq_true_eq] at this
  exact ⟨this.1, fun h => by simpa using this.2 h⟩

/-- The hypotheses are met: the document is parsed, in exact arithmetic, and draws something. -/
theorem size_holds : NoReuse sizeDoc ∧ ∃ s : Svg ℝ, parse 1 2 sizeDoc .eof = .done (some s) none [] ∧ opsOf s = 8 := by
  refine ⟨noReuse_of (by decide +kernel), ?_⟩
  have h : (match (parse 1 2 sizeDoc .eof : Outcome ℝ) with | .done (some s) none [] => decide (opsOf s = 8) | _ => false) = true := by
    decide +kernel
  split at h
  · rename_i s hs
    exact ⟨s, hs, by simpa using h⟩
  · cases h

/-- A polyline without points draws the numbers of the last element that had some, so the size of the document does not bound what
a polyline draws. -/
def leftDoc : List Token :=
  elem "svg" [] (elem "polyline" [("points", "0 0 1 0 1 1 0 1")] [] ++ elem "polyline" [] [] ++ elem "polyline" [] [])

set_option maxRecDepth 100000 in
theorem C43_points_left : ∃ s : Svg F64, parse 1 2 leftDoc .eof = .done (some s) none [] ∧ opsOf s = 12 ∧ (s.svgPaths.map (·.path.length)) = [4, 4, 4] := by
  have h : (match (parse 1 2 leftDoc .eof : Outcome F64) with
      | .done (some s) none [] => decide (opsOf s = 12 ∧ (s.svgPaths.map (·.path.length)) = [4, 4, 4]) | _ => false) = true := by
    decide +kernel
  split at h
  · rename_i s hs
    exact ⟨s, hs, by simpa using h⟩
  · cases h

end Examples

end GoSvg
