import Verif.Lemmas.NearPath
import Verif.Props.Float64

/-! C74: how far the path that is stored may be from the path that is written. -/

namespace GoSvg

open Spec F64

variable [Libm] [GoEnv]

theorem readAll_near {e : Nat} (he : e ≤ 52) : ∀ (ns : List Spelling), (∀ n ∈ ns, n.WF) → (∀ n ∈ ns, |(n.value : ℝ)| ≤ 2 ^ e) →
    ∃ vs : List F64, readAll (ns.map Spelling.text) = some vs ∧ List.Forall₂ (Rd e) (vs.map (· *. num 1)) (ns.map fun n => (n.value : ℝ))
  | [], _, _ => ⟨[], rfl, .nil⟩
  | n :: ns, hw, hg => by
    obtain ⟨vs, h1, h2⟩ := readAll_near he ns (fun m hm => hw m (List.mem_cons_of_mem _ hm)) (fun m hm => hg m (List.mem_cons_of_mem _ hm))
    have hb := hg n List.mem_cons_self
    have hb' : |n.value| ≤ 2 ^ e := by exact_mod_cast hb
    obtain ⟨x, hx, p, hI, hn⟩ := parse_nearest (hw n List.mem_cons_self) (by rw [← abs_value]; exact pow_bound he hb')
    refine ⟨x :: vs, ?_, ?_⟩
    · simp only [List.map_cons, readAll, hx, h1]
    · refine .cons ?_ h2
      have := near_round (d := 0) (r := (n.value : ℝ)) (x := x *. num 1) ⟨p, is_mul_one hI, hn⟩ (by simp) he (by simpa using hb)
      refine this.mono ?_
      unfold ulp
      rw [zero_add, div_div]
      norm_num

theorem near_stored {d : ℝ} {x z : F64} {r : ℝ} (h : Near d x r) (hz : Is z 0) (hb : |r| + d < 2 ^ 25) :
    |(toFix (x +. z) / 64 : ℝ) - r| < 1 / 64 + d := by
  obtain ⟨p, h1, h2⟩ := h
  have : Is (x +. z) (p + 0) := is_add h1 hz (by rw [add_zero]; exact is_rep h1)
  rw [add_zero] at this
  exact near_fix ⟨p, this, h2⟩ hb

theorem op_within {d : ℝ} {e : Nat} {o : GOp F64} {o' : GOp ℝ} (h : OpRel (Near d) o o') {z w : F64} (hz : Is z 0) (hw : Is w 0)
    (hu : UpOp e o') (hd : 2 ^ e + d < 2 ^ 25) : OpWithin (1 / 64 + d) (o.store toFix z w) o' := by
  have pt : ∀ {p : Pnt F64} {r : Pnt ℝ}, R2 (Near d) p r → Up2 e r → PtWithin (1 / 64 + d) ⟨toFix (p.1 +. z), toFix (p.2 +. w)⟩ r := by
    intro p r h hu
    exact ⟨near_stored h.1 hz (by linarith [hu.1]), near_stored h.2 hw (by linarith [hu.2])⟩
  cases h with
  | moveTo h => exact .moveTo (pt h hu)
  | lineTo h => exact .lineTo (pt h hu)
  | quadTo h h' => exact .quadTo (pt h hu.1) (pt h' hu.2)
  | cubicTo h h' h'' => exact .cubicTo (pt h hu.1) (pt h' hu.2.1) (pt h'' hu.2.2)
  | close => exact .close

/-- C74: path data whose numbers and whose points are at most `2^e` in magnitude, of at most `N` parameter sets: what is stored is
one operation for each, of the kind that is written, with every point less than 1/64 and the accumulated rounding error off. -/
theorem C74_path_error (e : Nat) (he : e ≤ 24) (pre : Str) (hpre : ∀ ch ∈ pre, GoEnv.isLetter ch = false) (cmds : List (Cmd ℝ))
    (ts : List Str) (hw : List.Forall₂ WrittenExactly cmds ts) (hm : StartsWithMoves false cmds)
    (ha : ∀ cmd ∈ cmds, ∀ r ∈ cmd.args, |r| ≤ 2 ^ e) (hb : ∀ o ∈ draw cmds, UpOp e o)
    (N : Nat) (hl : (draw cmds).length ≤ N) (hN : N * (N + 1) < 2 ^ 52)
    (c : PathCursor F64) (hx : Is c.curX 0) (hy : Is c.curY 0) :
    ∃ c', compilePath (pre ++ ts.flatten) c = (.ok (), c') ∧
      List.Forall₂ (OpWithin (1 / 64 + N * (N + 1) * 2 ^ e / 2 ^ 52)) c'.path (draw cmds) ∧ c'.log = c.log := by
  obtain ⟨cmds', hr, hw'⟩ : ∃ cmds' : List (Cmd F64), List.Forall₂ (CmdRel (Rd e)) cmds' cmds ∧ List.Forall₂ Written cmds' ts := by
    clear hm hb hl
    induction hw with
    | nil => exact ⟨[], .nil, .nil⟩
    | @cons cmd t _ _ h _ ih =>
      obtain ⟨cs, h1, h2⟩ := ih fun cmd hc => ha cmd (List.mem_cons_of_mem _ hc)
      obtain ⟨l, e1, e2, e3, e4, e5⟩ := h
      have hgn : ∀ n ∈ l.numbers, |(n.value : ℝ)| ≤ 2 ^ e := by
        intro n hn
        apply ha cmd List.mem_cons_self
        rw [e5]
        exact List.mem_map_of_mem hn
      obtain ⟨vs, r1, r2⟩ := readAll_near (by omega) l.numbers (groupList_numbers_wf e2) hgn
      rw [← e5] at r2
      obtain ⟨cmd', l1, l2, l3⟩ := cmd_inv r2
      exact ⟨cmd' :: cs, .cons l3 h1, .cons ⟨l, vs, by rw [l1]; exact e1, e2, e3, e4, r1, l2⟩ h2⟩
  obtain ⟨c', h1, h2, h3⟩ := C06_path_semantics pre hpre cmds' ts hw' (starts_rel hr false hm) c
  refine ⟨c', h1, ?_, h3⟩
  rw [h2]
  have hN' : (N : ℝ) * (N + 1) < 2 ^ 52 := by exact_mod_cast hN
  have hs : (N : ℝ) * (N + 1) * ulp e < 2 ^ e := by
    have hp : (0 : ℝ) < 2 ^ e := by positivity
    unfold ulp
    rw [mul_div_assoc', div_lt_iff₀ (by positivity)]
    nlinarith
  have hd := near_draw (by omega) hr hl hs.le hb
  have hlt : (2 : ℝ) ^ e + N * (N + 1) * ulp e < 2 ^ 25 := by
    have : (2 : ℝ) ^ e ≤ 2 ^ 24 := pow_le_pow_right₀ (by norm_num) he
    linarith
  have ed : (N : ℝ) * (N + 1) * 2 ^ e / 2 ^ 52 = N * (N + 1) * ulp e := by unfold ulp; ring
  rw [ed]
  clear h2
  generalize draw cmds' = a at hd
  generalize draw cmds = b at hd hb
  induction hd with
  | nil => exact .nil
  | cons h _ ih =>
    rw [List.map_cons]
    exact .cons (op_within h hx hy (hb _ List.mem_cons_self) hlt) (ih fun o ho => hb o (List.mem_cons_of_mem _ ho))

/-- C74, with numbers put in: up to 65536 pixels and a thousand parameter sets, the error is less than 1/64 + 1/65000 of a pixel. -/
theorem C74_path_error_small (pre : Str) (hpre : ∀ ch ∈ pre, GoEnv.isLetter ch = false) (cmds : List (Cmd ℝ))
    (ts : List Str) (hw : List.Forall₂ WrittenExactly cmds ts) (hm : StartsWithMoves false cmds)
    (ha : ∀ cmd ∈ cmds, ∀ r ∈ cmd.args, |r| ≤ 65536) (hb : ∀ o ∈ draw cmds, UpOp 16 o) (hl : (draw cmds).length ≤ 1000)
    (c : PathCursor F64) (hx : Is c.curX 0) (hy : Is c.curY 0) :
    ∃ c', compilePath (pre ++ ts.flatten) c = (.ok (), c') ∧
      List.Forall₂ (OpWithin (1 / 64 + 1 / 65000)) c'.path (draw cmds) ∧ c'.log = c.log := by
  obtain ⟨c', h1, h2, h3⟩ := C74_path_error 16 (by norm_num) pre hpre cmds ts hw hm (by norm_num; exact ha) hb 1000 hl (by norm_num) c hx hy
  refine ⟨c', h1, h2.imp fun o o' h => ?_, h3⟩
  have pt : ∀ {p : Pt} {r : Pnt ℝ}, PtWithin (1 / 64 + ((1000 : Nat) : ℝ) * (((1000 : Nat) : ℝ) + 1) * 2 ^ 16 / 2 ^ 52) p r → PtWithin (1 / 64 + 1 / 65000) p r := by
    intro p r h
    have : (1 / 64 + ((1000 : Nat) : ℝ) * (((1000 : Nat) : ℝ) + 1) * 2 ^ 16 / 2 ^ 52) ≤ 1 / 64 + 1 / 65000 := by norm_num
    exact ⟨h.1.trans_le this, h.2.trans_le this⟩
  cases h with
  | moveTo h => exact .moveTo (pt h)
  | lineTo h => exact .lineTo (pt h)
  | quadTo h h' => exact .quadTo (pt h) (pt h')
  | cubicTo h h' h'' => exact .cubicTo (pt h) (pt h') (pt h'')
  | close => exact .close

end GoSvg

namespace GoSvg

open Spec F64

section Examples

attribute [local instance] asciiEnv
attribute [local instance] dummyLibm

def tenthTexts : List Str := ["M.1 0.2".toList, "l.3-.7".toList, "t1 .9".toList, "t-.1 0".toList, "z".toList]

noncomputable def tenthCmds : List (Cmd ℝ) :=
  [.move false (1 / 10, 1 / 5) [], .line true (3 / 10, -7 / 10) [], .tquad true (1, 9 / 10) [], .tquad true (-1 / 10, 0) [], .close true]

set_option maxRecDepth 100000 in
theorem tenthWritten : List.Forall₂ WrittenExactly tenthCmds tenthTexts := by
  refine .cons ⟨⟨[dec "" false "" "1", dec " " false "0" "2"], []⟩, ?_⟩ (.cons ⟨⟨[dec "" false "" "3", dec "" true "" "7"], []⟩, ?_⟩
    (.cons ⟨⟨[int "" "1", dec " " false "" "9"], []⟩, ?_⟩ (.cons ⟨⟨[dec "" true "" "1", int " " "0"], []⟩, ?_⟩ (.cons ⟨⟨[], []⟩, ?_⟩ .nil))))
  all_goals refine ⟨by decide +kernel, by decide +kernel, by decide +kernel, by decide +kernel, ?_⟩
  · have h1 : (Spelling.value ⟨false, "".toList, some "1".toList, none⟩) = 1 / 10 := by decide +kernel
    have h2 : (Spelling.value ⟨false, "0".toList, some "2".toList, none⟩) = 1 / 5 := by decide +kernel
    simp only [Cmd.args, flat2, GroupList.numbers, Group.numbers, dec, int, List.flatMap_cons, List.flatMap_nil, List.append_nil,
      List.cons_append, List.nil_append, List.map_cons, List.map_nil, h1, h2]
    norm_num
  · have h1 : (Spelling.value ⟨false, "".toList, some "3".toList, none⟩) = 3 / 10 := by decide +kernel
    have h2 : (Spelling.value ⟨true, "".toList, some "7".toList, none⟩) = -7 / 10 := by decide +kernel
    simp only [Cmd.args, flat2, GroupList.numbers, Group.numbers, dec, int, List.flatMap_cons, List.flatMap_nil, List.append_nil,
      List.cons_append, List.nil_append, List.map_cons, List.map_nil, h1, h2]
    norm_num
  · have h1 : (Spelling.value ⟨false, "1".toList, none, none⟩) = 1 := by decide +kernel
    have h2 : (Spelling.value ⟨false, "".toList, some "9".toList, none⟩) = 9 / 10 := by decide +kernel
    simp only [Cmd.args, flat2, GroupList.numbers, Group.numbers, dec, int, List.flatMap_cons, List.flatMap_nil, List.append_nil,
      List.cons_append, List.nil_append, List.map_cons, List.map_nil, h1, h2]
    norm_num
  · have h1 : (Spelling.value ⟨true, "".toList, some "1".toList, none⟩) = -1 / 10 := by decide +kernel
    have h2 : (Spelling.value ⟨false, "0".toList, none, none⟩) = 0 := by decide +kernel
    simp only [Cmd.args, flat2, GroupList.numbers, Group.numbers, dec, int, List.flatMap_cons, List.flatMap_nil, List.append_nil,
      List.cons_append, List.nil_append, List.map_cons, List.map_nil, h1, h2]
    norm_num
  · simp [Cmd.args, GroupList.numbers]

theorem tenthDraw : draw tenthCmds = [.moveTo (1 / 10, 1 / 5), .lineTo (2 / 5, -1 / 2), .quadTo (2 / 5, -1 / 2) (7 / 5, 2 / 5),
    .quadTo (12 / 5, 13 / 10) (13 / 10, 2 / 5), .close] := by
  simp only [draw, tenthCmds, List.flatMap_cons, List.flatMap_nil, Cmd.segs, List.map_cons, List.map_nil, List.cons_append, List.nil_append,
    exec, step, off, mirror, real_add, real_sub, real_mul, real_num]
  norm_num

/-- The hypotheses of C74 are met by a path of numbers that binary64 cannot represent, with a reflected control point. -/
example : ∃ c', compilePath "M.1 0.2l.3-.7t1 .9t-.1 0z".toList (freshPath 0) = (.ok (), c') ∧
    List.Forall₂ (OpWithin (1 / 64 + 1 / 65000)) c'.path (draw tenthCmds) := by
  obtain ⟨c', h1, h2, -⟩ := C74_path_error_small [] (by simp) tenthCmds tenthTexts tenthWritten ⟨rfl, rfl, rfl, rfl, trivial⟩
    (by
      intro cmd hc r hr
      simp only [tenthCmds, List.mem_cons, List.not_mem_nil, or_false] at hc
      rcases hc with rfl | rfl | rfl | rfl | rfl <;>
        simp only [Cmd.args, flat2, List.flatMap_cons, List.flatMap_nil, List.append_nil, List.cons_append, List.nil_append, List.mem_cons,
          List.not_mem_nil, or_false] at hr <;>
        (try rcases hr with rfl | rfl) <;> (try norm_num [abs_le]))
    (by
      intro o ho
      rw [tenthDraw] at ho
      simp only [List.mem_cons, List.not_mem_nil, or_false] at ho
      rcases ho with rfl | rfl | rfl | rfl | rfl <;> norm_num [UpOp, Up2, abs_le])
    (by rw [tenthDraw]; norm_num) (freshPath 0) (is_num rep_zero) (is_num rep_zero)
  exact ⟨c', h1, h2⟩

end Examples

end GoSvg
