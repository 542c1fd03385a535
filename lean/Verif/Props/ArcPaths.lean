import Verif.Lemmas.SignedArc
import Verif.Props.Transformed

/-! C78: path data with arcs among the other commands, in exact arithmetic. -/

namespace GoSvg.Spec

/-- A command of a path: one of those of `Cmd`, or an arc with one parameter set. -/
inductive ACmd where
  | plain (c : Cmd ℝ)
  | arc (rel : Bool) (rx ry rot large sweep : ℝ) (p : P2)

/-- The letter. -/
def ACmd.letter : ACmd → Char
  | .plain c => c.letter
  | .arc r .. => if r then 'a' else 'A'

/-- The numbers. -/
def ACmd.args : ACmd → List ℝ
  | .plain c => c.args
  | .arc _ rx ry rot large sweep p => [rx, ry, rot, large, sweep, p.1, p.2]

/-- The text is the letter and spellings of exactly the numbers. -/
def ACmd.WrittenAs [GoEnv] (cmd : ACmd) (t : Str) : Prop :=
  ∃ l : GroupList, t = cmd.letter :: l.text ∧ l.WF ∧ (∀ c ∈ l.last, PathSep c) ∧
    (∀ i ∈ l.items, ∀ c ∈ i.1, PathSep c) ∧ cmd.args = l.numbers.map fun n => (n.value : ℝ)

/-- The path begins with a move, and so does what follows a close. -/
def AStarts : Bool → List ACmd → Prop
  | _, [] => True
  | _, .plain (.move ..) :: cs => AStarts true cs
  | isOpen, .plain (.close _) :: cs => isOpen = true ∧ AStarts false cs
  | isOpen, _ :: cs => isOpen = true ∧ AStarts isOpen cs

/-- Where the pen is after a command. -/
noncomputable def ACmd.after (s : St ℝ) : ACmd → St ℝ
  | .plain c => (exec s c.segs).2
  | .arc rel _ _ _ _ _ p => { s with cur := off rel s p, ctrl := .none }

/-- Every arc has two positive or two negative radii and ends at another point than it starts. (SVG 1.1 F.6.2 and F.6.6: the signs are dropped; with a
radius of zero the arc is a line, without distance it is nothing.) -/
def ProperArcs : St ℝ → List ACmd → Prop
  | _, [] => True
  | s, cmd :: cs => (match cmd with
      | .plain _ => True
      | .arc rel rx ry _ _ _ p => 0 < rx * ry ∧ s.cur ≠ off rel s p) ∧ ProperArcs (cmd.after s) cs

/-- The operations stand for the commands: those of `Cmd` as in `exec`; an arc is a chain of cubics that follow the piece of the ellipse that SVG
prescribes (`IsArc`, `Follows`). -/
inductive StandFor : St ℝ → List ACmd → List (GOp ℝ) → Prop
  | nil {s} : StandFor s [] []
  | plain {s c cs ops} : StandFor (ACmd.after s (.plain c)) cs ops → StandFor s (.plain c :: cs) ((exec s c.segs).1 ++ ops)
  | arc {s rel rx ry rot large sweep p cs ops e η δ n bs} :
      IsArc |rx| |ry| (rot * Real.pi / 180) (decide (large ≠ 0)) (decide (sweep ≠ 0)) s.cur.1 s.cur.2 (off rel s p).1 (off rel s p).2 e η δ →
      Follows e η δ n bs → StandFor (ACmd.after s (.arc rel rx ry rot large sweep p)) cs ops →
      StandFor s (.arc rel rx ry rot large sweep p :: cs) (bs.map (fun b => .cubicTo b.p1 b.p2 b.p3) ++ ops)

/-- Not an arc. -/
def ACmd.IsPlain : ACmd → Prop
  | .plain _ => True
  | .arc .. => False

/-- Enough room for the commands under `f`: for every point of the plain commands, and around the start of every arc as far as seven times the
sum of its radii. -/
def RoomFor (f : P2 → P2) : St ℝ → List ACmd → Prop
  | _, [] => True
  | s, cmd :: cs => (match cmd with
      | .plain c => ∀ o ∈ (exec s c.segs).1, ∀ r ∈ o.points, InRange f r
      | .arc rel rx ry rot _ _ p => ∃ k, LeastScale |rx| |ry| (rot * Real.pi / 180) s.cur.1 s.cur.2 (off rel s p).1 (off rel s p).2 k ∧
          ∀ r : P2, |r.1 - s.cur.1| ≤ 7 * (k * (|rx| + |ry|)) → |r.2 - s.cur.2| ≤ 7 * (k * (|rx| + |ry|)) → InRange f r) ∧ RoomFor f (cmd.after s) cs

end GoSvg.Spec

namespace GoSvg

open Spec SM

variable [GoEnv]

theorem writes_of_as {cmd : ACmd} {t : Str} (h : cmd.WrittenAs t) : Writes cmd.letter cmd.args t := by
  obtain ⟨l, h1, h2, h3, h4, h5⟩ := h
  refine ⟨l, l.numbers.map fun n => (n.value : ℝ), h1, h2, h3, h4, readAll_real _ (groupList_numbers_wf h2), ?_⟩
  rw [h5, List.map_map]
  apply List.map_congr_left
  intro n _
  show _ = (n.value : ℝ) * ((1 : ℚ) : ℝ)
  simp

/-- One arc, from any state without an offset. -/
theorem arc_step {k : Char} (hk : k = 'a' ∨ k = 'A') (c1 : PathCursor ℝ) (hoff1 : c1.curX = 0 ∧ c1.curY = 0)
    (rx ry rot large sweep x' y' x y : ℝ) (hx : x = if k = 'a' then x' + c1.placeX else x')
    (hy : y = if k = 'a' then y' + c1.placeY else y') (hr : 0 < rx * ry) (hne : (c1.placeX, c1.placeY) ≠ (x, y)) :
    ∃ e η δ n cs pts, doLetter k { c1 with points := [rx, ry, rot, large, sweep, x', y'] } = (.ok (), { c1 with
        points := pts, path := c1.path ++ cs.map storeCubic, placeX := x, placeY := y, lastKey := k }) ∧
      IsArc |rx| |ry| (rot * Real.pi / 180) (decide (large ≠ 0)) (decide (sweep ≠ 0)) c1.placeX c1.placeY x y e η δ ∧ Follows e η δ n cs := by
  rw [arc_letter hk, ← hx, ← hy]
  obtain ⟨e, η, δ, n, cs, hA, f1, f2⟩ := signed_arc (left_ne_zero_of_mul hr.ne') (right_ne_zero_of_mul hr.ne') rot large sweep c1.placeX c1.placeY x y hne
  rw [if_pos hr] at hA
  set ctr := findEllipseCenter rx ry (rot * Real.pi / 180) c1.placeX c1.placeY x y (GoFloat.eq sweep 0) (GoFloat.eq large 0) with hctr
  have f3 : addArcFromA 0 { c1 with points := [rx, ry, rot, large, sweep, x, y] } =
      { c1 with points := [ctr.ra, ctr.rb, rot, large, sweep, x, y], path := c1.path ++ cs.map storeCubic, placeX := x, placeY := y } := by
    unfold addArcFromA
    simp only [at_, List.getD_cons_zero, List.getD_cons_succ, real_mul, real_div, real_piMul, real_num, List.set_cons_zero,
      List.set_cons_succ, real_add, hoff1.1, hoff1.2, add_zero]
    norm_num only [Rat.cast_ofNat, Rat.cast_zero, Rat.cast_one, one_mul]
    rw [← hctr, f2]
  exact ⟨_, _, _, n, cs, _, by rw [f3], hA, f1⟩

theorem astarts_cons {isOpen : Bool} {c : Cmd ℝ} {cs : List ACmd} (h : AStarts isOpen (.plain c :: cs)) :
    ∃ o, AStarts o cs ∧ Refines isOpen c o := by
  cases c with
  | move r p ps => exact ⟨true, h, refines_move _ _ _ _⟩
  | line r p ps => exact ⟨_, h.2, refines_line _ _ _ _⟩
  | horiz r p ps => exact ⟨_, h.2, refines_horiz _ _ _ _⟩
  | vert r p ps => exact ⟨_, h.2, refines_vert _ _ _ _⟩
  | cubic r p ps => exact ⟨_, h.2, refines_cubic _ _ _ _⟩
  | smooth r p ps => exact ⟨_, h.2, refines_smooth _ _ _ _⟩
  | quad r p ps => exact ⟨_, h.2, refines_quad _ _ _ _⟩
  | tquad r p ps => exact ⟨_, h.2, refines_tquad _ _ _ _⟩
  | close r => obtain ⟨rfl, h⟩ := h; exact ⟨_, h, refines_close _⟩

/-- All commands, from any state that stands for the state of the drawing. -/
theorem draws_all : ∀ (cmds : List ACmd) (ts : List Str) (isOpen : Bool) (c : PathCursor ℝ) (s : St ℝ),
    List.Forall₂ ACmd.WrittenAs cmds ts → AStarts isOpen cmds → ProperArcs s cmds → Rel isOpen c s →
    (c.curX = 0 ∧ c.curY = 0) ∨ (∀ k ∈ cmds, k.IsPlain) →
    ∃ c' ops, forEach addSeg ts c = (.ok (), c') ∧ Same c c' ∧ StandFor s cmds ops ∧ c'.path = c.path ++ ops.map (GOp.store toFix c.curX c.curY) := by
  intro cmds
  induction cmds with
  | nil =>
    intro ts isOpen c s hw _ _ _ _
    cases hw
    exact ⟨c, [], rfl, ⟨rfl, rfl, rfl, rfl⟩, .nil, by simp⟩
  | cons cmd cmds ih =>
    intro ts isOpen c s hw hs hp hr h0
    cases hw with
    | cons hw hws =>
      rename_i t ts
      cases cmd with
      | plain cmd =>
        obtain ⟨o, hs', hrf⟩ := astarts_cons hs
        obtain ⟨c1, h1, h2, h3, h4⟩ := refines_written (writes_of_as hw) hrf c s hr
        obtain ⟨c2, ops, g1, g2, g3, g4⟩ := ih ts o c1 _ hws hs' hp.2 h4
          (h0.imp (fun h => ⟨h2.1.trans h.1, h2.2.trans h.2⟩) fun h k hk => h k (List.mem_cons_of_mem _ hk))
        refine ⟨c2, _, ?_, ⟨g2.1.trans h2.1, g2.2.trans h2.2, g2.3.trans h2.3, g2.4.trans h2.4⟩, .plain g3, ?_⟩
        · show (addSeg t >>= fun _ => forEach addSeg ts) c = _
          rw [SM.bind_run, h1]
          exact g1
        · rw [g4, h3, h2.1, h2.2, List.map_append, List.append_assoc]
      | arc rel rx ry rot large sweep p =>
        obtain ⟨⟨p1, p3⟩, hp'⟩ := hp
        replace h0 : c.curX = 0 ∧ c.curY = 0 := h0.resolve_right fun h => h _ List.mem_cons_self
        have hx : c.placeX = s.cur.1 := congrArg Prod.fst hr.cur
        have hy : c.placeY = s.cur.2 := congrArg Prod.snd hr.cur
        obtain ⟨k, hk⟩ : ∃ k, k = if rel then 'a' else 'A' := ⟨_, rfl⟩
        have hk' : k = 'a' ∨ k = 'A' := by cases rel <;> simp [hk]
        have ho : off rel s p = (if k = 'a' then p.1 + c.placeX else p.1, if k = 'a' then p.2 + c.placeY else p.2) := by
          rw [hx, hy, hk]
          cases rel
          · rfl
          · rfl
        have hw' : Writes k [rx, ry, rot, large, sweep, p.1, p.2] t := hk ▸ writes_of_as hw
        obtain ⟨e, η, δ, n, cs, pts, h1, h2, h3⟩ := arc_step hk' c h0 rx ry rot large sweep p.1 p.2 (off rel s p).1 (off rel s p).2
          (by rw [ho]) (by rw [ho]) p1 (by rw [hx, hy]; exact p3)
        obtain ⟨c2, ops, g1, g2, g3, g4⟩ := ih ts isOpen { c with
          points := pts, path := c.path ++ cs.map storeCubic, placeX := (off rel s p).1, placeY := (off rel s p).2, lastKey := k }
          (ACmd.after s (.arc rel rx ry rot large sweep p)) hws hs.2 hp'
          ⟨rfl, hr.inPath, hr.start, show k ∉ quadKeys ∧ k ∉ cubeKeys by rcases hk' with h | h <;> rw [h] <;> decide⟩ (.inl h0)
        rw [hx, hy] at h2
        refine ⟨c2, _, ?_, ⟨g2.1, g2.2, g2.3, g2.4⟩, .arc h2 h3 g3, ?_⟩
        · show (addSeg t >>= fun _ => forEach addSeg ts) c = _
          rw [SM.bind_run, addSeg_writes hw', h1]
          exact g1
        · rw [g4, List.map_append, List.map_map, List.append_assoc]
          congr 2
          apply List.map_congr_left
          intro b _
          rw [h0.1, h0.2]
          simp [GOp.store, storeCubic, toFixedP]

/-- C78 for path data, also inside a `use`: with an offset for paths without arcs. -/
theorem C78_path_at_partial (pre : Str) (hpre : ∀ ch ∈ pre, GoEnv.isLetter ch = false) (cmds : List ACmd) (ts : List Str)
    (hw : List.Forall₂ ACmd.WrittenAs cmds ts) (hm : AStarts false cmds) (hp : ProperArcs ⟨(0, 0), (0, 0), .none⟩ cmds) (c : PathCursor ℝ)
    (h0 : (c.curX = 0 ∧ c.curY = 0) ∨ ∀ k ∈ cmds, k.IsPlain) :
    ∃ c' ops, compilePath (pre ++ ts.flatten) c = (.ok (), c') ∧ StandFor ⟨(0, 0), (0, 0), .none⟩ cmds ops ∧
      c'.path = ops.map (GOp.store toFix c.curX c.curY) ∧ c'.log = c.log := by
  have hs : ∀ t ∈ ts, IsSegment t := by
    intro t ht
    clear hm hpre hp h0
    induction hw with
    | nil => simp at ht
    | @cons cmd _ _ _ h _ ih =>
      simp only [List.mem_cons] at ht
      rcases ht with rfl | ht
      · refine writes_segment (startsSeg_letter ?_) (writes_of_as h)
        cases cmd with
        | plain c => exact letter_mem c
        | arc r => cases r <;> simp [ACmd.letter, pathLetters]
      · exact ih ht
  have hr := rel_init c
  simp only [real_num, Rat.cast_zero] at hr
  obtain ⟨c', ops, h1, h2, h3, h4⟩ := draws_all cmds ts false c.init _ hw hm hp hr h0
  refine ⟨c', ops, ?_, h3, ?_, h2.4⟩
  · rw [compilePath_text pre (fun ch hc => by unfold startsSeg; rw [hpre ch hc]; rfl) ts hs]
    exact h1
  · rw [h4]; rfl

/-- C78 for path data: every path whose arcs have one parameter set each. -/
theorem C78_path_partial (pre : Str) (hpre : ∀ ch ∈ pre, GoEnv.isLetter ch = false) (cmds : List ACmd) (ts : List Str)
    (hw : List.Forall₂ ACmd.WrittenAs cmds ts) (hm : AStarts false cmds) (hp : ProperArcs ⟨(0, 0), (0, 0), .none⟩ cmds) (c : PathCursor ℝ)
    (h0 : c.curX = 0 ∧ c.curY = 0) :
    ∃ c' ops, compilePath (pre ++ ts.flatten) c = (.ok (), c') ∧ StandFor ⟨(0, 0), (0, 0), .none⟩ cmds ops ∧
      c'.path = ops.map (GOp.store toFix 0 0) ∧ c'.log = c.log := by
  have := C78_path_at_partial pre hpre cmds ts hw hm hp c (.inl h0)
  rwa [h0.1, h0.2] at this

variable {fuel : Nat} {m : ErrorMode} {root : Elem} {ch : List Elem} {attrs : List Attr} {lead body post : List Token} {s : Svg ℝ}

omit [GoEnv] in
theorem standFor_ne {cmds : List ACmd} {s : St ℝ} {ops : List (GOp ℝ)} (h : StandFor s cmds ops) (hm : AStarts false cmds) (hne : cmds ≠ []) : ops ≠ [] := by
  cases h with
  | nil => exact absurd rfl hne
  | @plain _ c cs ops h =>
    cases c with
    | move r p ps => simp [Cmd.segs, exec, step]
    | _ => exact absurd hm.1 (by decide)
  | arc => exact absurd hm.1 (by decide)

/-- C78 for whole documents: what the path contributes. -/
theorem C78_document_partial (h : Parsed fuel m root ch "path".toList attrs lead body post s) (pre : Str)
    (hpre : ∀ ch ∈ pre, GoEnv.isLetter ch = false) (cmds : List ACmd) (ts : List Str) (hw : List.Forall₂ ACmd.WrittenAs cmds ts)
    (hm : AStarts false cmds) (hp : ProperArcs ⟨(0, 0), (0, 0), .none⟩ cmds) (hne : cmds ≠ []) (hv : Given attrs "d" (pre ++ ts.flatten)) :
    Contributes fuel m (lead ++ .start root.name root.attrs :: body) (.start "path".toList attrs) s fun ops =>
      ∃ G, StandFor ⟨(0, 0), (0, 0), .none⟩ cmds G ∧ ops = G.map (GOp.store toFix 0 0) := by
  obtain ⟨l, hl⟩ := h.result
  refine stands_contributes h.place hl fun c st hr hx hy hb => ?_
  obtain ⟨pc, ops, h1, h2, h3, -⟩ := C78_path_partial pre hpre cmds ts hw hm hp c.pc ⟨by rw [hx]; simp, by rw [hy]; simp⟩
  refine ⟨_, ⟨ops, h2, rfl⟩, ?_⟩
  have := path_adds (fuel := fuel) h.distinct hr hv h1
  rwa [h3, if_neg (by simpa using standFor_ne h2 hm hne)] at this

omit [GoEnv] in
/-- A point not outside an ellipse is within the sum of its radii of the centre. -/
theorem level_box {e : Ellipse} (ha : 0 < e.ra) (hb : 0 < e.rb) {p : P2} (h : e.level p ≤ 1) :
    |p.1 - e.cx| ≤ e.ra + e.rb ∧ |p.2 - e.cy| ≤ e.ra + e.rb := by
  obtain ⟨u, hu⟩ : ∃ u, u = (e.along p.1 p.2).1 := ⟨_, rfl⟩
  obtain ⟨v, hv⟩ : ∃ v, v = (e.along p.1 p.2).2 := ⟨_, rfl⟩
  have hc := Real.sin_sq_add_cos_sq e.rot
  have ex : p.1 - e.cx = u * Real.cos e.rot - v * Real.sin e.rot := by
    rw [hu, hv]; simp only [Ellipse.along]; linear_combination -(p.1 - e.cx) * hc
  have ey : p.2 - e.cy = u * Real.sin e.rot + v * Real.cos e.rot := by
    rw [hu, hv]; simp only [Ellipse.along]; linear_combination -(p.2 - e.cy) * hc
  rw [Ellipse.level, ← hu, ← hv] at h
  have bu : |u| ≤ e.ra := by
    have h2 : (u / e.ra) ^ 2 ≤ 1 := by nlinarith [sq_nonneg (v / e.rb)]
    rwa [sq_le_one_iff_abs_le_one, abs_div, abs_of_pos ha, div_le_one ha] at h2
  have bv : |v| ≤ e.rb := by
    have h2 : (v / e.rb) ^ 2 ≤ 1 := by nlinarith [sq_nonneg (u / e.ra)]
    rwa [sq_le_one_iff_abs_le_one, abs_div, abs_of_pos hb, div_le_one hb] at h2
  have c1 := Real.abs_cos_le_one e.rot
  have s1 := Real.abs_sin_le_one e.rot
  have m : ∀ {a b c : ℝ}, |a| ≤ b → |c| ≤ 1 → |a * c| ≤ b := by
    intro a b c h1 h2
    rw [abs_mul]
    calc |a| * |c| ≤ |a| * 1 := mul_le_mul_of_nonneg_left h2 (abs_nonneg a)
      _ ≤ b := by rw [mul_one]; exact h1
  rw [ex, ey]
  exact ⟨(abs_sub _ _).trans (add_le_add (m bu c1) (m bv s1)), (abs_add_le _ _).trans (add_le_add (m bu s1) (m bv c1))⟩

omit [GoEnv] in
theorem point_level {e : Ellipse} (ha : e.ra ≠ 0) (hb : e.rb ≠ 0) (η : ℝ) : e.level (e.point η) = 1 := by
  have hc := Real.sin_sq_add_cos_sq e.rot
  have h1 : (e.along (e.point η).1 (e.point η).2).1 = e.ra * Real.cos η := by
    simp only [Ellipse.along, Ellipse.point]; linear_combination (e.ra * Real.cos η) * hc
  have h2 : (e.along (e.point η).1 (e.point η).2).2 = e.rb * Real.sin η := by
    simp only [Ellipse.along, Ellipse.point]; linear_combination (e.rb * Real.sin η) * hc
  rw [Ellipse.level, h1, h2, mul_div_cancel_left₀ _ ha, mul_div_cancel_left₀ _ hb]
  exact Real.cos_sq_add_sin_sq η

omit [GoEnv] in
/-- A cubic coordinate that stays within `R` of `c` has control points within `6 R`. -/
theorem control_bound {p0 p1 p2 p3 c R : ℝ}
    (h : ∀ t : ℝ, 0 ≤ t → t ≤ 1 → |((1 - t) ^ 3 * p0 + 3 * (1 - t) ^ 2 * t * p1 + 3 * (1 - t) * t ^ 2 * p2 + t ^ 3 * p3) - c| ≤ R) :
    |p1 - c| ≤ 6 * R ∧ |p2 - c| ≤ 6 * R ∧ |p3 - c| ≤ 6 * R := by
  have a0 := abs_le.1 (h 0 (by norm_num) (by norm_num))
  have a1 := abs_le.1 (h (1 / 3) (by norm_num) (by norm_num))
  have a2 := abs_le.1 (h (2 / 3) (by norm_num) (by norm_num))
  have a3 := abs_le.1 (h 1 (by norm_num) (by norm_num))
  norm_num at a0 a1 a2 a3
  refine ⟨abs_le.2 ⟨?_, ?_⟩, abs_le.2 ⟨?_, ?_⟩, abs_le.2 ⟨?_, ?_⟩⟩ <;> linarith [a0.1, a0.2, a1.1, a1.2, a2.1, a2.2, a3.1, a3.2]

omit [GoEnv] in
/-- The control points of an arc are not far from its start. -/
theorem arc_box {rx ry rot x0 y0 x y : ℝ} {large sweep : Bool} {e : Ellipse} {η δ : ℝ} {n : Nat} {bs : List Cubic} (hx : 0 < rx) (hy : 0 < ry)
    (hA : IsArc rx ry rot large sweep x0 y0 x y e η δ) (hF : Traces e η δ n bs) {k : ℝ} (hk : LeastScale rx ry rot x0 y0 x y k) {b : Cubic}
    (hb : b ∈ bs) {r : P2} (hr : r = b.p1 ∨ r = b.p2 ∨ r = b.p3) :
    |r.1 - x0| ≤ 7 * (k * (rx + ry)) ∧ |r.2 - y0| ≤ 7 * (k * (rx + ry)) := by
  obtain ⟨k', hk', ea, eb⟩ := hA.scale
  have : k' = k := le_antisymm (hk'.2.2 k hk.1 hk.2.1) (hk.2.2 k' hk'.1 hk'.2.1)
  subst this
  have k0 : 0 < k' := lt_of_lt_of_le one_pos hk.1
  have ha : 0 < e.ra := by rw [ea]; positivity
  have hb' : 0 < e.rb := by rw [eb]; positivity
  have hR : e.ra + e.rb = k' * (rx + ry) := by rw [ea, eb]; ring
  have s0 := level_box ha hb' (point_level ha.ne' hb'.ne' η).le
  rw [hA.start, hR] at s0
  dsimp only at s0
  have box : ∀ t : ℝ, 0 ≤ t → t ≤ 1 → |(b.at t).1 - e.cx| ≤ k' * (rx + ry) ∧ |(b.at t).2 - e.cy| ≤ k' * (rx + ry) := by
    intro t h0 h1
    rw [← hR]
    exact level_box ha hb' (hF.near b hb t h0 h1).2
  obtain ⟨x1, x2, x3⟩ := control_bound fun t h0 h1 => (box t h0 h1).1
  obtain ⟨y1, y2, y3⟩ := control_bound fun t h0 h1 => (box t h0 h1).2
  have fin : ∀ {u c u0 R : ℝ}, |u - c| ≤ 6 * R → |u0 - c| ≤ R → |u - u0| ≤ 7 * R := by
    intro u c u0 R h1 h2
    have := abs_sub_le u c u0
    rw [abs_sub_comm c u0] at this
    linarith
  rcases hr with rfl | rfl | rfl
  · exact ⟨fin x1 s0.1, fin y1 s0.2⟩
  · exact ⟨fin x2 s0.1, fin y2 s0.2⟩
  · exact ⟨fin x3 s0.1, fin y3 s0.2⟩

omit [GoEnv] in
theorem room_range {f : P2 → P2} {s : St ℝ} {cmds : List ACmd} {G : List (GOp ℝ)} (h : StandFor s cmds G) (hp : ProperArcs s cmds)
    (hr : RoomFor f s cmds) : ∀ o ∈ G, ∀ r ∈ o.points, InRange f r := by
  induction h with
  | nil => simp
  | plain h ih =>
    intro o ho r hr'
    rcases List.mem_append.1 ho with ho | ho
    · exact hr.1 o ho r hr'
    · exact ih hp.2 hr.2 o ho r hr'
  | arc h1 h2 h3 ih =>
    intro o ho r hr'
    rcases List.mem_append.1 ho with ho | ho
    · obtain ⟨b, hb, rfl⟩ := List.mem_map.1 ho
      obtain ⟨k, hk, hk'⟩ := hr.1
      have := arc_box (abs_pos.2 (left_ne_zero_of_mul hp.1.1.ne')) (abs_pos.2 (right_ne_zero_of_mul hp.1.1.ne')) h1 h2.toTraces hk hb (r := r) (by simpa [GOp.points] using hr')
      exact hk' r this.1 this.2
    · exact ih hp.2 hr.2 o ho r hr'

/-- C78, drawn: under the transforms around it and into the target, as in C77. -/
theorem C78_drawn_partial [RxEnv ℝ] (h : Parsed fuel m root ch "path".toList attrs lead body post s)
    (hb : Balanced (lead ++ .start root.name root.attrs :: body ++ [.start "path".toList attrs])) {T : P2 → P2}
    (hT : TransformedBy (⟨"path".toList, attrs⟩ :: ch) T) (pre : Str)
    (hpre : ∀ ch ∈ pre, GoEnv.isLetter ch = false) (cmds : List ACmd) (ts : List Str) (hw : List.Forall₂ ACmd.WrittenAs cmds ts)
    (hm : AStarts false cmds) (hp : ProperArcs ⟨(0, 0), (0, 0), .none⟩ cmds) (hne : cmds ≠ []) (hv : Given attrs "d" (pre ++ ts.flatten))
    {x y w ht : ℝ} (hf : InPlace s.viewBox x y w ht T)
    (hG : RoomFor (fitted s.viewBox x y w ht ∘ T) ⟨(0, 0), (0, 0), .none⟩ cmds) :
    ∃ i G, (∀ k, DrawnBy (F := ℝ) fuel m (lead ++ .start root.name root.attrs :: body) (.start "path".toList attrs) k ↔ k = i) ∧
      StandFor ⟨(0, 0), (0, 0), .none⟩ cmds G ∧ DrawnUnder s [.target x y w ht] i (fitted s.viewBox x y w ht ∘ T) G := by
  obtain ⟨i, p, h1, h2, G, h3, h4⟩ := C78_document_partial h pre hpre cmds ts hw hm hp hne hv
  obtain ⟨i', d1, d2⟩ := C77_drawn_partial h hb hT ⟨i, p, h1, h2, h4⟩ hf (room_range h3 hp hG)
  exact ⟨i', G, d1, h3, d2⟩

end GoSvg

namespace GoSvg

open Spec

section Examples

attribute [local instance] asciiEnv
attribute [local instance] dummyLibm

/-- Bounds that are not used. -/
local instance exRxArc : RxEnv ℝ := ⟨fun _ => (⟨0, 0⟩, ⟨0, 0⟩)⟩

/-- `M1 0 a1 1 0 0 1 -2 0 l2 1 z`: half a circle around the origin. -/
def halfCmds : List ACmd := [.plain (.move false (1, 0) []), .arc true 1 1 0 0 1 (-2, 0), .plain (.line true (2, 1) []), .plain (.close true)]

def halfTexts : List Str := ["M1 0".toList, "a1 1 0 0 1-2 0".toList, "l2 1".toList, "z".toList]

set_option maxRecDepth 100000 in
theorem half_written : List.Forall₂ ACmd.WrittenAs halfCmds halfTexts := by
  refine .cons ⟨⟨[int "" "1", int " " "0"], []⟩, by decide +kernel, by decide +kernel, by decide +kernel, by decide +kernel, ?_⟩
    (.cons ⟨⟨[int "" "1", int " " "1", int " " "0", int " " "0", int " " "1", ⟨[], ⟨⟨true, "2".toList, none, none⟩, []⟩⟩, int " " "0"], []⟩, by decide +kernel,
      by decide +kernel, by decide +kernel, by decide +kernel, ?_⟩
    (.cons ⟨⟨[int "" "2", int " " "1"], []⟩, by decide +kernel, by decide +kernel, by decide +kernel, by decide +kernel, ?_⟩
    (.cons ⟨⟨[], []⟩, by decide +kernel, by decide +kernel, by decide +kernel, by decide +kernel, ?_⟩ .nil)))
  all_goals
    simp [ACmd.args, Cmd.args, flat2, GroupList.numbers, Group.numbers, int, Spelling.value, Spelling.absValue, natVal]

theorem half_off : off true (⟨(1, 0), (1, 0), .none⟩ : St ℝ) (-2, 0) = (-1, 0) := by
  simp [off]; norm_num

theorem half_after : ACmd.after (⟨(1, 0), (1, 0), .none⟩ : St ℝ) (.arc true 1 1 0 0 1 (-2, 0)) = ⟨(-1, 0), (1, 0), .none⟩ := by
  simp only [ACmd.after, half_off]

theorem half_proper : ProperArcs ⟨(0, 0), (0, 0), .none⟩ halfCmds := by
  refine ⟨trivial, ⟨by norm_num, ?_⟩, trivial, trivial, trivial⟩
  change (1, 0) ≠ off true (⟨(1, 0), (1, 0), .none⟩ : St ℝ) (-2, 0)
  rw [half_off]
  norm_num

theorem half_scale : LeastScale 1 1 (0 * Real.pi / 180) 1 0 (-1) 0 1 := by
  refine ⟨le_refl _, ⟨0, 0, ?_, ?_⟩, fun k h _ => h⟩ <;> simp [Ellipse.Through, Ellipse.along]

/-- C78 for the text of the path. -/
example : ∃ c' ops, compilePath "M1 0a1 1 0 0 1-2 0l2 1z".toList (freshReal .strict) = (.ok (), c') ∧
    StandFor ⟨(0, 0), (0, 0), .none⟩ halfCmds ops ∧ c'.path = ops.map (GOp.store toFix 0 0) := by
  obtain ⟨c', ops, h1, h2, h3, -⟩ := C78_path_partial [] (by simp) halfCmds halfTexts half_written ⟨rfl, rfl, rfl, trivial⟩ half_proper
    (freshReal .strict) ⟨rfl, rfl⟩
  exact ⟨c', ops, h1, h2, h3⟩

set_option maxRecDepth 100000 in
/-- C78 for a path in a group with `scale(2)`, drawn at twice the size of the view box. -/
example : ∃ (s : Svg ℝ) (i : Nat) (G : List (GOp ℝ)), StandFor ⟨(0, 0), (0, 0), .none⟩ halfCmds G ∧
    DrawnUnder s [.target 0 0 200 100] i (fun p => (4 * p.1, 4 * p.2)) G := by
  obtain ⟨A, hA⟩ : ∃ A, A = attrsOf [("id", "b"), ("d", "M1 0a1 1 0 0 1-2 0l2 1z")] := ⟨_, rfl⟩
  have hd : Distinct A := by rw [hA]; decide
  have hv : Given A "d" ([] ++ halfTexts.flatten) := by rw [hA]; decide
  obtain ⟨s, hs⟩ := place_adds (F := ℝ) "path" A hd (by rw [hA]; decide +kernel) (by rw [hA]; decide +kernel) fun c st hr hx hy => (by
    obtain ⟨pc, ops, h1, -⟩ := C78_path_partial [] (by simp) halfCmds halfTexts half_written ⟨rfl, rfl, rfl, trivial⟩ half_proper c.pc
      ⟨by rw [hx]; simp, by rw [hy]; simp⟩
    exact ⟨_, path_adds (fuel := 8) hd hr hv h1⟩)
  have hb := place_box hs
  have hbal : Balanced ([] ++ .start placeRoot.name placeRoot.attrs :: placeBody ++ [.start "path".toList A]) := by
    rw [hA]; exact ⟨by decide +kernel, .inr ⟨by decide +kernel, by decide +kernel⟩⟩
  have hT : TransformedBy (⟨"path".toList, A⟩ :: placeCh) (applyList [.scale 2 2]) := .plain (by rw [hA]; decide +kernel) place_transformed
  have hfun : fitted s.viewBox 0 0 200 100 ∘ applyList [.scale 2 2] = fun p => (4 * p.1, 4 * p.2) := by
    rw [hb]
    funext p
    simp only [fitted, applyList, Fn.apply, Function.comp, List.foldr, Prod.mk.injEq]
    constructor <;> norm_num <;> ring
  have hr : ∀ r : P2, |r.1| ≤ 20 → |r.2| ≤ 20 → InRange (fitted s.viewBox 0 0 200 100 ∘ applyList [.scale 2 2]) r := by
    intro r h1 h2
    rw [hfun]
    constructor
    · exact inFixRange_of (by norm_num; linarith)
    · exact inFixRange_of (by norm_num; linarith)
    · simp only [stretchX, lin, abs_mul]; norm_num; linarith
    · simp only [stretchY, lin, abs_mul]; norm_num; linarith
  obtain ⟨i, G, -, h2, h3⟩ := C78_drawn_partial hs hbal hT [] (by simp) halfCmds halfTexts half_written ⟨rfl, rfl, rfl, trivial⟩ half_proper
    (by simp [halfCmds]) hv (x := 0) (y := 0) (w := 200) (ht := 100)
    ⟨by rw [hb]; norm_num, .inl rfl, .inl rfl, .inl (by rw [hb]; norm_num), by rw [hb]; simp [fitted, lin, applyList, Fn.apply]⟩
    (by
      refine ⟨?_, ⟨1, ?_, ?_⟩, ?_, ?_, trivial⟩
      · intro o ho r h
        simp only [Cmd.segs, exec, step, List.map_nil, List.mem_singleton, off] at ho
        subst ho
        simp only [GOp.points, List.mem_singleton] at h
        subst h
        exact hr _ (by norm_num) (by norm_num)
      · change LeastScale |1| |1| _ 1 0 (off true (⟨(1, 0), (1, 0), .none⟩ : St ℝ) (-2, 0)).1 (off true (⟨(1, 0), (1, 0), .none⟩ : St ℝ) (-2, 0)).2 1
        rw [half_off, abs_one]
        exact half_scale
      · intro r h1 h2
        change |r.1 - 1| ≤ _ at h1
        change |r.2 - 0| ≤ _ at h2
        rw [abs_one, abs_le] at h1 h2
        exact hr r (abs_le.2 ⟨by linarith [h1.1], by linarith [h1.2]⟩) (abs_le.2 ⟨by linarith [h2.1], by linarith [h2.2]⟩)
      · change ∀ o ∈ (exec (ACmd.after (⟨(1, 0), (1, 0), .none⟩ : St ℝ) (.arc true 1 1 0 0 1 (-2, 0))) _).1, _
        rw [half_after]
        intro o ho r h
        simp only [Cmd.segs, exec, step, List.map_cons, List.map_nil, List.mem_singleton, off, if_true] at ho
        subst ho
        simp only [GOp.points, List.mem_singleton] at h
        subst h
        exact hr _ (by norm_num) (by norm_num)
      · intro o ho r h
        simp only [Cmd.segs, exec, step, List.mem_singleton] at ho
        subst ho
        cases h)
  rw [hfun] at h3
  exact ⟨s, i, G, h2, h3⟩

end Examples

end GoSvg
