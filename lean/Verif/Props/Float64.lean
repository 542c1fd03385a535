import Verif.Lemmas.GridPath
import Verif.Props.Numbers
import Verif.Props.PathData

/-! C01, C02, C05, C68 in binary64, the arithmetic of the program. -/

namespace GoSvg

open Spec F64

variable [Libm] [GoEnv]

theorem abs_value (n : Spelling) : |n.value| = n.absValue := by
  have h0 := absValue_nonneg n
  unfold Spelling.value
  cases n.neg
  · simpa using h0
  · simpa using h0

theorem readAll_nearest : ∀ (ns : List Spelling), (∀ n ∈ ns, n.WF) → (∀ n ∈ ns, |n.value| < 2 ^ (1024 : Int) - 2 ^ (970 : Int)) →
    ∃ vs : List F64, readAll (ns.map Spelling.text) = some vs ∧ List.Forall₂ (fun x n => Nearest x n.value) (vs.map (· *. num 1)) ns
  | [], _, _ => ⟨[], rfl, .nil⟩
  | n :: ns, hw, hg => by
    obtain ⟨vs, h1, h2⟩ := readAll_nearest ns (fun m hm => hw m (List.mem_cons_of_mem _ hm)) (fun m hm => hg m (List.mem_cons_of_mem _ hm))
    obtain ⟨x, hx, p, hI, hn⟩ := parse_nearest (hw n List.mem_cons_self) (by rw [← abs_value]; exact hg n List.mem_cons_self)
    refine ⟨x :: vs, ?_, ?_⟩
    · simp only [List.map_cons, readAll, hx, h1]
    · exact .cons ⟨p, is_mul_one hI, hn⟩ h2

/-- C02 in binary64: every number of a list, run together or not, is read as a nearest number of binary64. -/
theorem C02_float64 (l : GroupList) (h : l.WF) (hb : ∀ n ∈ l.numbers, |n.value| < 2 ^ (1024 : Int) - 2 ^ (970 : Int))
    (c : PathCursor F64) :
    ∃ ps : List F64, getPoints l.text c = (.ok (), { c with points := ps }) ∧ List.Forall₂ (fun x n => Nearest x n.value) ps l.numbers := by
  obtain ⟨vs, h1, h2⟩ := readAll_nearest l.numbers (groupList_numbers_wf h) hb
  exact ⟨_, (groups_read l h c).1 vs h1, h2⟩

/-- C01 in binary64: the numbers of a list are read as nearest numbers of binary64. -/
theorem C01_float64 (l : NumberList) (h : l.WF) (hb : ∀ i ∈ l.items, |i.2.value| < 2 ^ (1024 : Int) - 2 ^ (970 : Int))
    (c : PathCursor F64) :
    ∃ ps : List F64, getPoints l.text c = (.ok (), { c with points := ps }) ∧
      List.Forall₂ (fun x n => Nearest x n.value) ps (l.items.map (·.2)) := by
  have := C02_float64 (single l) (single_wf h) (by
    rw [single_numbers]
    intro n hn
    obtain ⟨i, hi, rfl⟩ := List.mem_map.1 hn
    exact hb i hi) c
  rwa [single_text, single_numbers] at this

/-- C05 in binary64: what is stored for a number of binary64 is its exact value truncated to 1/64. -/
theorem C05_float64 (x : F64) (q : ℚ) (hx : Is x q) (h : InFixRange (q : ℝ)) :
    IsTrunc ((q : ℝ) * 64) (toFix x) ∧ |(q : ℝ) - toFix x / 64| < 1 / 64 ∧ |(toFix x / 64 : ℝ)| ≤ |(q : ℝ)| ∧ 0 ≤ (q : ℝ) * toFix x ∧
    ((toFix x / 64 : ℝ) = q ↔ ∃ k : ℤ, (q : ℝ) = k / 64) := by
  have hq : |q| < 2 ^ 53 := by
    have : |(q : ℝ)| < 2 ^ 53 := by
      obtain ⟨h1, h2⟩ := h
      rw [abs_lt]
      constructor <;> norm_num at * <;> linarith
    exact_mod_cast this
  rw [toFix_is hx hq]
  exact C05_quantised _ h

/-- C68: path data on a binary grid, drawn within the grid, is read in binary64 without any rounding error: what is stored is
what exact arithmetic stores. -/
theorem C68_grid_path (k : Nat) (hk : k ≤ 1074) (pre : Str) (hpre : ∀ ch ∈ pre, GoEnv.isLetter ch = false) (cmds : List (Cmd ℝ))
    (ts : List Str) (hw : List.Forall₂ WrittenExactly cmds ts) (hm : StartsWithMoves false cmds)
    (hg : ∀ cmd ∈ cmds, ∀ r ∈ cmd.args, Grid k r) (hb : ∀ o ∈ draw cmds, LowOp k o)
    (c : PathCursor F64) (hx : Is c.curX 0) (hy : Is c.curY 0) :
    ∃ c', compilePath (pre ++ ts.flatten) c = (.ok (), c') ∧ c'.path = (draw cmds).map (GOp.store toFix 0 0) ∧ c'.log = c.log := by
  obtain ⟨cmds', hr, hw'⟩ : ∃ cmds' : List (Cmd F64), List.Forall₂ (CmdRel (E k)) cmds' cmds ∧ List.Forall₂ Written cmds' ts := by
    clear hm hb
    induction hw with
    | nil => exact ⟨[], .nil, .nil⟩
    | @cons cmd t _ _ h _ ih =>
      obtain ⟨cs, h1, h2⟩ := ih fun cmd hc => hg cmd (List.mem_cons_of_mem _ hc)
      obtain ⟨l, e1, e2, e3, e4, e5⟩ := h
      have hgn : ∀ n ∈ l.numbers, Grid k (n.value : ℝ) := by
        intro n hn
        apply hg cmd List.mem_cons_self
        rw [e5]
        exact List.mem_map_of_mem hn
      obtain ⟨vs, r1, r2⟩ := readAll_grid hk l.numbers (groupList_numbers_wf e2) hgn
      rw [← e5] at r2
      obtain ⟨cmd', l1, l2, l3⟩ := cmd_inv r2
      exact ⟨cmd' :: cs, .cons l3 h1, .cons ⟨l, vs, by rw [l1]; exact e1, e2, e3, e4, r1, l2⟩ h2⟩
  obtain ⟨c', h1, h2, h3⟩ := C06_path_semantics pre hpre cmds' ts hw' (starts_rel hr false hm) c
  refine ⟨c', h1, ?_, h3⟩
  rw [h2]
  have hd := draw_rel hk hr hb
  clear h2 hb
  generalize draw cmds' = a at hd
  generalize draw cmds = b at hd
  induction hd with
  | nil => rfl
  | cons h _ ih => rw [List.map_cons, List.map_cons, store_rel hk h hx hy, ih]

end GoSvg

namespace GoSvg

open Spec F64

section Examples

attribute [local instance] asciiEnv
attribute [local instance] dummyLibm

/-- `-0.25` behind a separator, and other decimals. -/
def dec (sep : String) (neg : Bool) (ip f : String) : Str × Group := (sep.toList, ⟨⟨neg, ip.toList, some f.toList, none⟩, []⟩)

def gridTexts : List Str := ["M0.5 1".toList, "l-0.25 2".toList, "t1 .75".toList, "z".toList]

noncomputable def gridCmds : List (Cmd ℝ) := [.move false (1 / 2, 1) [], .line true (-1 / 4, 2) [], .tquad true (1, 3 / 4) [], .close true]

set_option maxRecDepth 100000 in
theorem gridWritten : List.Forall₂ WrittenExactly gridCmds gridTexts := by
  refine .cons ⟨⟨[dec "" false "0" "5", int " " "1"], []⟩, ?_⟩ (.cons ⟨⟨[dec "" true "0" "25", int " " "2"], []⟩, ?_⟩
    (.cons ⟨⟨[int "" "1", dec " " false "" "75"], []⟩, ?_⟩ (.cons ⟨⟨[], []⟩, ?_⟩ .nil)))
  all_goals refine ⟨by decide +kernel, by decide +kernel, by decide +kernel, by decide +kernel, ?_⟩
  · have h1 : (Spelling.value ⟨false, "0".toList, some "5".toList, none⟩) = 1 / 2 := by decide +kernel
    have h2 : (Spelling.value ⟨false, "1".toList, none, none⟩) = 1 := by decide +kernel
    simp only [Cmd.args, flat2, GroupList.numbers, Group.numbers, dec, int, List.flatMap_cons, List.flatMap_nil, List.append_nil,
      List.cons_append, List.nil_append, List.map_cons, List.map_nil, h1, h2]
    norm_num
  · have h1 : (Spelling.value ⟨true, "0".toList, some "25".toList, none⟩) = -1 / 4 := by decide +kernel
    have h2 : (Spelling.value ⟨false, "2".toList, none, none⟩) = 2 := by decide +kernel
    simp only [Cmd.args, flat2, GroupList.numbers, Group.numbers, dec, int, List.flatMap_cons, List.flatMap_nil, List.append_nil,
      List.cons_append, List.nil_append, List.map_cons, List.map_nil, h1, h2]
    norm_num
  · have h1 : (Spelling.value ⟨false, "".toList, some "75".toList, none⟩) = 3 / 4 := by decide +kernel
    have h2 : (Spelling.value ⟨false, "1".toList, none, none⟩) = 1 := by decide +kernel
    simp only [Cmd.args, flat2, GroupList.numbers, Group.numbers, dec, int, List.flatMap_cons, List.flatMap_nil, List.append_nil,
      List.cons_append, List.nil_append, List.map_cons, List.map_nil, h1, h2]
    norm_num
  · simp [Cmd.args, GroupList.numbers]

theorem gridDraw : draw gridCmds = [.moveTo (1 / 2, 1), .lineTo (1 / 4, 3), .quadTo (1 / 4, 3) (5 / 4, 15 / 4), .close] := by
  simp only [draw, gridCmds, List.flatMap_cons, List.flatMap_nil, Cmd.segs, List.map_cons, List.map_nil, List.cons_append, List.nil_append,
    exec, step, off, real_add, real_num]
  norm_num

/-- The hypotheses of C68 are met by `M0.5 1l-0.25 2t1 .75z`. -/
example : ∃ c', compilePath gridTexts.flatten (freshPath 0) = (.ok (), c') ∧ c'.path = (draw gridCmds).map (GOp.store toFix 0 0) ∧
    c'.log = [] := by
  have hz : Is (num 0 : F64) 0 := is_num rep_zero
  refine C68_grid_path 2 (by norm_num) [] (by simp) gridCmds gridTexts gridWritten ⟨rfl, rfl, rfl, trivial⟩ ?_ ?_ (freshPath 0) hz hz
  · intro cmd hc r hr
    simp only [gridCmds, List.mem_cons, List.not_mem_nil, or_false] at hc
    rcases hc with rfl | rfl | rfl | rfl <;>
      simp only [Cmd.args, flat2, List.flatMap_cons, List.flatMap_nil, List.cons_append, List.nil_append, List.mem_cons, List.not_mem_nil, or_false] at hr
    · rcases hr with rfl | rfl
      · exact ⟨2, by norm_num, by norm_num⟩
      · exact ⟨4, by norm_num, by norm_num⟩
    · rcases hr with rfl | rfl
      · exact ⟨-1, by norm_num, by norm_num⟩
      · exact ⟨8, by norm_num, by norm_num⟩
    · rcases hr with rfl | rfl
      · exact ⟨4, by norm_num, by norm_num⟩
      · exact ⟨3, by norm_num, by norm_num⟩
  · rw [gridDraw]
    intro o ho
    simp only [List.mem_cons, List.not_mem_nil, or_false] at ho
    rcases ho with rfl | rfl | rfl | rfl <;> simp only [LowOp, Low2] <;> norm_num [abs_le]

set_option maxRecDepth 100000 in
/-- Off the grid the claim is false: ten relative steps of 0.1 end 1/64 short of 1. -/
theorem C68_off_grid_false :
    (compilePath "M0 0h.1 .1 .1 .1 .1 .1 .1 .1 .1 .1".toList (freshPath 0)).2.path.getLast? = some (.lineTo ⟨63, 0⟩) ∧
    toFix (10 * (1 / 10) : ℝ) = 64 := by
  refine ⟨by decide +kernel, ?_⟩
  have h : InFixRange (10 * (1 / 10) : ℝ) := by unfold InFixRange; norm_num
  apply isTrunc_unique (C05_quantised _ h).1
  constructor
  · intro _; norm_num
  · intro h; norm_num at h

/-- The hypotheses of C05 in binary64 are met by -3.25. -/
example : ∃ x : F64, Is x (-13 / 4) ∧ InFixRange ((-13 / 4 : ℚ) : ℝ) :=
  ⟨_, is_num (F64.is_rep (x := .fin true 13 (-2)) ⟨true, 13, -2, rfl, by norm_num, by norm_num⟩), by unfold InFixRange; norm_num⟩

set_option maxRecDepth 100000 in
/-- The hypotheses of C01 and C02 in binary64 are met by `0.1 -7.25`. -/
example (c : PathCursor F64) : ∃ ps : List F64, getPoints "0.1 -7.25".toList c = (.ok (), { c with points := ps }) ∧ ps.length = 2 := by
  obtain ⟨ps, h1, h2⟩ := C02_float64 ⟨[dec "" false "0" "1", dec " " true "7" "25"], []⟩ (by decide +kernel) (by
    intro n hn
    have hp : (8 : ℚ) ≤ 2 ^ (1024 : Int) - 2 ^ (970 : Int) := by
      have h1 : (2 : ℚ) ^ (1024 : Int) = 2 ^ (970 : Int) * 2 ^ (54 : Int) := by rw [← zpow_add₀ (by norm_num)]; rfl
      have h2 : (1 : ℚ) ≤ 2 ^ (970 : Int) := one_le_zpow₀ (by norm_num) (by norm_num)
      rw [h1]
      generalize (2 : ℚ) ^ (970 : Int) = X at h2
      norm_num
      linarith
    refine lt_of_lt_of_le ?_ hp
    simp only [GroupList.numbers, Group.numbers, dec, List.flatMap_cons, List.flatMap_nil, List.append_nil, List.cons_append, List.nil_append,
      List.mem_cons, List.not_mem_nil, or_false] at hn
    rcases hn with rfl | rfl
    · rw [show Spelling.value ⟨false, "0".toList, some "1".toList, none⟩ = 1 / 10 by decide +kernel]; norm_num
    · rw [show Spelling.value ⟨true, "7".toList, some "25".toList, none⟩ = -29 / 4 by decide +kernel]; norm_num) c
  exact ⟨ps, h1, h2.length_eq⟩

end Examples

end GoSvg
