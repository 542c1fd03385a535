import Verif.Lemmas.ArcFromA64
import Verif.Props.ArcPaths
import Verif.Props.Ellipse64
import Verif.Props.PathError
import Verif.Props.RootBox64
import Verif.Props.ShapeError
import Verif.Props.Transforms64

/-! C84: paths with circular arcs in binary64, with bounds for the error. -/

namespace GoSvg.Spec

/-- An arc of a circle from `p` to `q`: equal radii, no rotation, flags 0 or 1. For numbers up to `2^e / 2` its radius is not extremely small and its
ends are not very close to each other. -/
structure RoundArc (e : Nat) (rx ry rot large sweep : ℝ) (p q : P2) : Prop where
  circle : rx = ry
  upright : rot = 0
  flags : (large = 0 ∨ large = 1) ∧ (sweep = 0 ∨ sweep = 1)
  radius : 2 ^ e / 2 ^ 40 ≤ rx ∧ rx ≤ 2 ^ e / 2
  apart : (2 ^ e / 2 ^ 6) ^ 2 ≤ (q.1 - p.1) ^ 2 + (q.2 - p.2) ^ 2

/-- Every number and every point of the path is at most `2^d` in magnitude, and every arc is one of a circle. -/
def RoundArcs (d e : Nat) : St ℝ → List ACmd → Prop
  | _, [] => True
  | s, cmd :: cs => (match cmd with
      | .plain c => (∀ r ∈ c.args, |r| ≤ 2 ^ d) ∧ ∀ o ∈ (exec s c.segs).1, UpOp d o
      | .arc rel rx ry rot large sweep p => RoundArc e rx ry rot large sweep s.cur (off rel s p) ∧ Up2 d p ∧ Up2 d (off rel s p)) ∧
    RoundArcs d e (cmd.after s) cs

/-- The number of parameter sets. -/
def ACmd.sets : ACmd → Nat
  | .plain c => c.segs.length
  | .arc .. => 1

/-- The stored path stands for the commands: for those of `Cmd` the operations of `exec`, less than `w` off; for an arc a chain of cubics,
each point less than 1/64 and 1/4096 of the radius off a chain that traces the piece of the ellipse that SVG prescribes (`IsArc`, `Traces`). -/
inductive StoredFor (w : ℝ) : St ℝ → List ACmd → Path → Prop
  | nil {s} : StoredFor w s [] []
  | plain {s c cs ops ops'} : List.Forall₂ (OpWithin w) ops (exec s c.segs).1 → StoredFor w (ACmd.after s (.plain c)) cs ops' →
      StoredFor w s (.plain c :: cs) (ops ++ ops')
  | arc {s rel rx ry rot large sweep p cs ops ops' E η δ n bs} :
      IsArc |rx| |ry| (rot * Real.pi / 180) (decide (large ≠ 0)) (decide (sweep ≠ 0)) s.cur.1 s.cur.2 (off rel s p).1 (off rel s p).2 E η δ →
      Traces E η δ n bs → |δ| / n ≤ 0.394 →
      List.Forall₂ (OpWithin (1 / 64 + E.ra / 2 ^ 12)) ops (bs.map fun b => .cubicTo b.p1 b.p2 b.p3) →
      StoredFor w (ACmd.after s (.arc rel rx ry rot large sweep p)) cs ops' → StoredFor w s (.arc rel rx ry rot large sweep p :: cs) (ops ++ ops')

/-- As `StandFor`, with chains of cubics that need not be the shortest. -/
inductive TracedFor : St ℝ → List ACmd → List (GOp ℝ) → Prop
  | nil {s} : TracedFor s [] []
  | plain {s c cs ops} : TracedFor (ACmd.after s (.plain c)) cs ops → TracedFor s (.plain c :: cs) ((exec s c.segs).1 ++ ops)
  | arc {s rel rx ry rot large sweep p cs ops E η δ n bs} :
      IsArc |rx| |ry| (rot * Real.pi / 180) (decide (large ≠ 0)) (decide (sweep ≠ 0)) s.cur.1 s.cur.2 (off rel s p).1 (off rel s p).2 E η δ →
      Traces E η δ n bs → |δ| / n ≤ 0.394 → TracedFor (ACmd.after s (.arc rel rx ry rot large sweep p)) cs ops →
      TracedFor s (.arc rel rx ry rot large sweep p :: cs) (bs.map (fun b => .cubicTo b.p1 b.p2 b.p3) ++ ops)

end GoSvg.Spec

namespace GoSvg

open Spec SM F64

variable [Libm] [GoEnv]

/-- Positive numbers are read to numbers that depend on their values only. -/
theorem readAll_value : ∀ (ns : List Spelling), (∀ n ∈ ns, n.WF) → (∀ n ∈ ns, |n.value| < 2 ^ (1024 : Int) - 2 ^ (970 : Int)) →
    ∃ vs : List F64, readAll (ns.map Spelling.text) = some vs ∧
      List.Forall₂ (fun x n => Nearest x n.value ∧ (0 < n.value → x = roundAbs false n.value *. num 1)) (vs.map (· *. num 1)) ns
  | [], _, _ => ⟨[], rfl, .nil⟩
  | n :: ns, hw, hg => by
    obtain ⟨vs, h1, h2⟩ := readAll_value ns (fun m hm => hw m (List.mem_cons_of_mem _ hm)) (fun m hm => hg m (List.mem_cons_of_mem _ hm))
    have hwf := hw n List.mem_cons_self
    obtain ⟨x, hx, p, hI, hn⟩ := parse_nearest hwf (by rw [← abs_value]; exact hg n List.mem_cons_self)
    refine ⟨x :: vs, ?_, ?_⟩
    · simp only [List.map_cons, readAll, hx, h1]
    · refine .cons ⟨⟨p, is_mul_one hI, hn⟩, fun hp => ?_⟩ h2
      have hneg : n.neg = false := by
        by_contra hc
        rw [Bool.not_eq_false] at hc
        have := absValue_nonneg n
        simp only [Spelling.value, hc, if_true] at hp
        linarith
      have hv : n.value = n.absValue := by simp [Spelling.value, hneg]
      have hx' : F64.parse n.text = some x := hx
      unfold F64.parse at hx'
      rw [parseLit_dec (parseDec_text hwf), hneg, ← hv] at hx'
      dsimp only at hx'
      split at hx'
      · rename_i hz
        rw [Option.some.injEq] at hx'
        rw [hz, hx']
      · exact absurd hx' (by simp)

omit [Libm] [GoEnv] in
theorem nearest_exact {x : F64} {q : ℚ} (h : Nearest x q) (hq : Rep q) : Is x q := by
  obtain ⟨p, h1, h2⟩ := h
  have := h2 q hq
  rw [sub_self, abs_zero] at this
  rwa [sub_eq_zero.1 (abs_nonpos_iff.1 this)] at h1

/-- The numbers of an arc as they are read. -/
theorem arc_numbers {d e : Nat} (hd : d + 1 ≤ e) (he : e ≤ 22) {rel : Bool} {rx ry rot large sweep : ℝ} {p s q : P2} {t : Str}
    (hw : (ACmd.arc rel rx ry rot large sweep p).WrittenAs t) (hr : RoundArc e rx ry rot large sweep s q) (hp : Up2 d p) :
    ∃ r rot' large' sweep' x y : F64, Writes (if rel then 'a' else 'A') [r, r, rot', large', sweep', x, y] t ∧
      Near (2 ^ e / 2 ^ 54) r rx ∧ Is rot' 0 ∧ (!GoFloat.eq large' (num 0)) = decide (large ≠ 0) ∧
      (!GoFloat.eq sweep' (num 0)) = decide (sweep ≠ 0) ∧ Rd d x p.1 ∧ Rd d y p.2 := by
  obtain ⟨l, h1, h2, h3, h4, h5⟩ := hw
  have h6 := h5.symm
  simp only [ACmd.args, List.map_eq_cons_iff, List.map_eq_nil_iff] at h6
  obtain ⟨a1, l1, q1, v1, a2, l2, q2, v2, a3, l3, q3, v3, a4, l4, q4, v4, a5, l5, q5, v5, a6, l6, q6, v6, a7, l7, q7, v7, q8⟩ := h6
  subst q8 q7 q6 q5 q4 q3 q2
  have hP : (2 : ℝ) ^ d ≤ 2 ^ e := pow_le_pow_right₀ (by norm_num) (by omega)
  have hP1 : (1 : ℝ) ≤ 2 ^ e := one_le_pow₀ (by norm_num)
  have hrp : 0 < rx := lt_of_lt_of_le (by positivity) hr.radius.1
  have big : ∀ n ∈ l.numbers, |n.value| ≤ 2 ^ e := by
    have : ∀ n ∈ l.numbers, |(n.value : ℝ)| ≤ 2 ^ e := by
      rw [q1]
      intro n hn
      simp only [List.mem_cons, List.not_mem_nil, or_false] at hn
      have r1 : |rx| ≤ 2 ^ e := by rw [abs_of_pos hrp]; linarith [hr.radius.2]
      have fl : ∀ z : ℝ, z = 0 ∨ z = 1 → |z| ≤ 2 ^ e := by rintro z (rfl | rfl) <;> simp <;> linarith
      rcases hn with rfl | rfl | rfl | rfl | rfl | rfl | rfl
      · rw [v1]; exact r1
      · rw [v2, ← hr.circle]; exact r1
      · rw [v3, hr.upright]; simp
      · rw [v4]; exact fl _ hr.flags.1
      · rw [v5]; exact fl _ hr.flags.2
      · rw [v6]; exact hp.1.trans hP
      · rw [v7]; exact hp.2.trans hP
    intro n hn
    exact_mod_cast this n hn
  obtain ⟨vs, r1, r2⟩ := readAll_value l.numbers (groupList_numbers_wf h2) fun n hn => pow_bound (E := e) (by omega) (big n hn)
  obtain ⟨us, hus⟩ : ∃ us, us = vs.map (· *. num 1) := ⟨_, rfl⟩
  have hW : Writes (if rel then 'a' else 'A') us t := ⟨l, vs, h1, h2, h3, h4, r1, hus⟩
  rw [← hus, q1] at r2
  match us, r2, hW with
  | [u1, u2, u3, u4, u5, u6, u7], .cons c1 (.cons c2 (.cons c3 (.cons c4 (.cons c5 (.cons c6 (.cons c7 .nil)))))), hW =>
    have hv : a2.value = a1.value := by
      have : (a2.value : ℝ) = a1.value := by rw [v1, v2, hr.circle]
      exact_mod_cast this
    have hv1 : 0 < a1.value := by
      have : (0 : ℝ) < a1.value := by rw [v1]; exact hrp
      exact_mod_cast this
    have hu : u2 = u1 := by rw [c1.2 hv1, c2.2 (hv ▸ hv1), hv]
    subst hu
    have near : ∀ {E : Nat} {u : F64} {n : Spelling} {z : ℝ}, E ≤ 52 → Nearest u n.value → (n.value : ℝ) = z → |z| ≤ 2 ^ E → Near (2 ^ E / 2 ^ 54) u z := by
      intro E u n z hE h hz hb
      have := near_round (d := 0) (r := z) h (by rw [hz]; simp) hE (by simpa using hb)
      rwa [zero_add] at this
    have flag : ∀ {u : F64} {n : Spelling} {z : ℝ}, Nearest u n.value → (n.value : ℝ) = z → (z = 0 ∨ z = 1) →
        (!GoFloat.eq u (num 0)) = decide (z ≠ 0) := by
      intro u n z h hz h01
      have hv : n.value = 0 ∨ n.value = 1 := by
        rcases h01 with rfl | rfl
        · left; exact_mod_cast hz
        · right; exact_mod_cast hz
      have hi : Is u n.value := nearest_exact h (by rcases hv with h | h <;> rw [h]; exacts [rep_zero, rep_one])
      have := is_eq_zero hi
      rcases h01 with rfl | rfl
      · have h0 : n.value = 0 := by exact_mod_cast hz
        rw [this.2 h0]; simp
      · have h1 : ¬ n.value = 0 := by
          have : n.value = 1 := by exact_mod_cast hz
          rw [this]; norm_num
        rw [← this, Bool.not_eq_true] at h1
        rw [h1]; simp
    have rd : ∀ {u : F64} {n : Spelling} {z : ℝ}, Nearest u n.value → (n.value : ℝ) = z → |z| ≤ 2 ^ d → Rd d u z := by
      intro u n z h hz hb
      refine (near (by omega) h hz hb).mono (le_of_eq ?_)
      unfold ulp
      ring
    refine ⟨u2, u3, u4, u5, u6, u7, hW, near (by omega) c1.1 v1 (by rw [abs_of_pos hrp]; linarith [hr.radius.2]), ?_, flag c4.1 v4 hr.flags.1,
      flag c5.1 v5 hr.flags.2, rd c6.1 v6 hp.1, rd c7.1 v7 hp.2⟩
    have : a3.value = 0 := by
      have : (a3.value : ℝ) = 0 := by rw [v3, hr.upright]
      exact_mod_cast this
    have h0 := nearest_exact c3.1 (by rw [this]; exact rep_zero)
    rwa [this] at h0

omit [GoEnv] in
theorem near_exec_state {e : Nat} (he : e ≤ 50) {N : Nat} (hN : (N : ℝ) * (N + 1) * ulp e ≤ 2 ^ e) {gs : List (Bool × Seg F64)} {gs' : List (Bool × Seg ℝ)}
    (hg : List.Forall₂ (fun a b => a.1 = b.1 ∧ SegRel (Rd e) a.2 b.2) gs gs') : ∀ {n : Nat} {s : St F64} {t : St ℝ}, NSt e n s t →
    n + gs.length ≤ N → (∀ o ∈ (exec t gs').1, UpOp e o) → NSt e (n + gs.length) (exec s gs).2 (exec t gs').2 := by
  induction hg with
  | nil => intro n s t h _ _; exact h
  | @cons a b as bs hab _ ih =>
    intro n s t h hl hb
    obtain ⟨rel, g⟩ := a
    obtain ⟨rel', g'⟩ := b
    obtain ⟨rfl, hg⟩ := hab
    simp only [exec] at hb ⊢
    rw [List.length_cons] at hl
    have hu := ulp_pos e
    have hle : ((n : ℝ) + 1) * (n + 2) * ulp e ≤ N * (N + 1) * ulp e := by
      have h1 : ((n : ℝ) + 1) ≤ N := by exact_mod_cast (by omega : n + 1 ≤ N)
      have h2 : ((n : ℝ) + 2) ≤ N + 1 := by linarith
      have h3 : (0 : ℝ) ≤ n := by positivity
      apply mul_le_mul_of_nonneg_right _ hu.le
      apply mul_le_mul h1 h2 (by linarith) (by linarith)
    have h1 := near_step he (hle.trans hN) rel h hg (hb _ List.mem_cons_self)
    have := ih h1.2 (by omega) fun o ho => hb o (List.mem_cons_of_mem _ ho)
    rwa [show n + 1 + as.length = n + (as.length + 1) by omega] at this

/-- What the letter of an arc does with one parameter set. -/
theorem arc_letter64 (rel : Bool) (c : PathCursor F64) (r r' rot large sweep x y : F64) :
    doLetter (if rel then 'a' else 'A') { c with points := [r, r', rot, large, sweep, x, y] } =
      (.ok (), { addArcFromA 0 { c with points := [r, r', rot, large, sweep,
        if rel then x +. c.placeX else x, if rel then y +. c.placeY else y] } with lastKey := if rel then 'a' else 'A' }) := by
  have g : ∀ d : PathCursor F64, d.points.length = 7 → doLetter (if rel then 'a' else 'A') d =
      (.ok (), { arcLoop (if rel then 'a' else 'A') 1 0 d with lastKey := if rel then 'a' else 'A' }) := by
    intro d hd
    unfold doLetter
    rw [SM.bind_run, seg_arc, if_pos (hasSets_flat (n := 0) (by rw [hd])), hd]
    rfl
  rw [g _ rfl]
  cases rel <;> rfl

theorem astarts_cons64 {R : F64 → ℝ → Prop} {isOpen : Bool} {c : Cmd ℝ} {c' : Cmd F64} {cs : List ACmd} (h : AStarts isOpen (.plain c :: cs))
    (hc : CmdRel R c' c) : ∃ o, AStarts o cs ∧ Refines isOpen c' o := by
  cases hc with
  | move => exact ⟨true, h, refines_move _ _ _ _⟩
  | line => exact ⟨_, h.2, refines_line _ _ _ _⟩
  | horiz => exact ⟨_, h.2, refines_horiz _ _ _ _⟩
  | vert => exact ⟨_, h.2, refines_vert _ _ _ _⟩
  | cubic => exact ⟨_, h.2, refines_cubic _ _ _ _⟩
  | smooth => exact ⟨_, h.2, refines_smooth _ _ _ _⟩
  | quad => exact ⟨_, h.2, refines_quad _ _ _ _⟩
  | tquad => exact ⟨_, h.2, refines_tquad _ _ _ _⟩
  | close => obtain ⟨rfl, h⟩ := h; exact ⟨_, h, refines_close _⟩

/-- All commands, from any state near the state of the drawing. -/
theorem stores_all (hL : Accurate) (hA : Angular) {d e N : Nat} (hd : d + 1 ≤ e) (e1 : 7 ≤ e) (e2 : e ≤ 22) (hN : N * 2 ^ d ≤ 16 * 2 ^ e)
    (hN' : N * (N + 1) < 2 ^ 52) : ∀ (cmds : List ACmd) (ts : List Str) (isOpen : Bool) (c : PathCursor F64) (s : St F64) (t : St ℝ) (n : Nat),
    List.Forall₂ ACmd.WrittenAs cmds ts → AStarts isOpen cmds → RoundArcs d e t cmds → Rel isOpen c s → NSt d n s t →
    n + (cmds.map ACmd.sets).sum ≤ N → Is c.curX 0 → Is c.curY 0 →
    ∃ c' ops, forEach addSeg ts c = (.ok (), c') ∧ Same c c' ∧ StoredFor (1 / 64 + N * (N + 1) * 2 ^ d / 2 ^ 52) t cmds ops ∧ c'.path = c.path ++ ops := by
  have hP : (0 : ℝ) < 2 ^ d := by positivity
  have hu := ulp_pos d
  have hNr : (N : ℝ) * (N + 1) < 2 ^ 52 := by exact_mod_cast hN'
  have hs : (N : ℝ) * (N + 1) * ulp d < 2 ^ d := by
    unfold ulp
    rw [mul_div_assoc', div_lt_iff₀ (by positivity)]
    nlinarith
  have hlt : (2 : ℝ) ^ d + N * (N + 1) * ulp d < 2 ^ 25 := by
    have : (2 : ℝ) ^ d ≤ 2 ^ 24 := pow_le_pow_right₀ (by norm_num) (by omega)
    linarith
  have ed : (N : ℝ) * (N + 1) * 2 ^ d / 2 ^ 52 = N * (N + 1) * ulp d := by unfold ulp; ring
  have hNe : (N : ℝ) * ulp d ≤ 2 ^ e / 2 ^ 48 := by
    have : (N : ℝ) * 2 ^ d ≤ 16 * 2 ^ e := by exact_mod_cast hN
    unfold ulp
    rw [mul_div_assoc', div_le_div_iff₀ (by positivity) (by positivity)]
    linarith
  have hde : (2 : ℝ) ^ d ≤ 2 ^ e / 2 := by
    have : (2 : ℝ) ^ (d + 1) ≤ 2 ^ e := pow_le_pow_right₀ (by norm_num) hd
    rw [pow_succ] at this
    linarith
  intro cmds
  induction cmds with
  | nil =>
    intro ts isOpen c s t n hw _ _ _ _ _ _ _
    cases hw
    exact ⟨c, [], rfl, ⟨rfl, rfl, rfl, rfl⟩, .nil, by simp⟩
  | cons cmd cmds ih =>
    intro ts isOpen c s t n hw hst hp hr hn hl hx hy
    cases hw with
    | cons hw hws =>
      rename_i t1 ts
      rw [List.map_cons, List.sum_cons] at hl
      cases cmd with
      | plain cmd =>
        obtain ⟨⟨p1, p2⟩, hp'⟩ := hp
        obtain ⟨l, w1, w2, w3, w4, w5⟩ := hw
        have hgn : ∀ n ∈ l.numbers, |(n.value : ℝ)| ≤ 2 ^ d := by
          intro n hn
          apply p1
          change cmd.args = _ at w5
          rw [w5]
          exact List.mem_map_of_mem hn
        obtain ⟨vs, r1, r2⟩ := readAll_near (by omega) l.numbers (groupList_numbers_wf w2) hgn
        change cmd.args = _ at w5
        rw [← w5] at r2
        obtain ⟨cmd', l1, l2, l3⟩ := cmd_inv r2
        obtain ⟨o, hs', hrf⟩ := astarts_cons64 hst l3
        have hwr : Written cmd' t1 := ⟨l, vs, by rw [l1]; exact w1, w2, w3, w4, r1, l2⟩
        obtain ⟨c1, h1, h2, h3, h4⟩ := refines_written hwr hrf c s hr
        have hsr := segs_rel l3
        have hlen := hsr.length_eq
        simp only [ACmd.sets] at hl
        have q1 := near_exec (by omega) hs.le hsr hn (by omega) p2
        have q2 := near_exec_state (by omega) hs.le hsr hn (by omega) p2
        obtain ⟨c2, ops, g1, g2, g3, g4⟩ := ih ts o c1 _ _ _ hws hs' hp' h4 q2 (by omega) (by rw [h2.1]; exact hx) (by rw [h2.2]; exact hy)
        refine ⟨c2, (exec s cmd'.segs).1.map (sto c) ++ ops, ?_, ⟨g2.1.trans h2.1, g2.2.trans h2.2, g2.3.trans h2.3, g2.4.trans h2.4⟩, .plain ?_ g3, ?_⟩
        · show (addSeg t1 >>= fun _ => forEach addSeg ts) c = _
          rw [SM.bind_run, h1]
          exact g1
        · rw [ed]
          clear h3
          generalize (exec s cmd'.segs).1 = a at q1
          generalize (exec t cmd.segs).1 = b at q1 p2
          induction q1 with
          | nil => exact .nil
          | cons h _ ih =>
            rw [List.map_cons]
            exact .cons (op_within h hx hy (p2 _ List.mem_cons_self) hlt) (ih fun o ho => p2 o (List.mem_cons_of_mem _ ho))
        · rw [g4, h3, List.append_assoc]
      | arc rel rx ry rot large sweep p =>
        obtain ⟨⟨ra, up, uo⟩, hp'⟩ := hp
        simp only [ACmd.sets] at hl
        obtain ⟨r, rot', large', sweep', x', y', hW, nr, hrot, hla, hsw, nx, ny⟩ := arc_numbers hd e2 hw ra up
        have hn1 : ((n : ℝ) + 1) ≤ N := by exact_mod_cast (by omega : n + 1 ≤ N)
        have hn0 : (0 : ℝ) ≤ n := by positivity
        have hnu : ((n : ℝ) + 1) * ulp d ≤ 2 ^ d := by
          refine le_trans ?_ hs.le
          apply mul_le_mul_of_nonneg_right _ hu.le
          nlinarith
        have hno := near_off (by omega) hnu rel hn.cur (p := (x', y')) (r := p) ⟨nx, ny⟩ uo
        have hcx : c.placeX = s.cur.1 := congrArg Prod.fst hr.cur
        have hcy : c.placeY = s.cur.2 := congrArg Prod.snd hr.cur
        have ho : off rel s (x', y') = (if rel then x' +. c.placeX else x', if rel then y' +. c.placeY else y') := by
          rw [hcx, hcy]
          cases rel <;> rfl
        have hle : ((n : ℝ) + 1) * ulp d ≤ 2 ^ e / 2 ^ 48 := (mul_le_mul_of_nonneg_right hn1 hu.le).trans hNe
        have hle' : (n : ℝ) * ulp d ≤ 2 ^ e / 2 ^ 48 := by nlinarith
        have hP' : (0 : ℝ) < 2 ^ e := by positivity
        obtain ⟨h, hh⟩ : ∃ h, h = Real.sqrt ((((off rel t p).1 - t.cur.1) / 2) ^ 2 + (((off rel t p).2 - t.cur.2) / 2) ^ 2) := ⟨_, rfl⟩
        have hap : (2 ^ e / 2 ^ 7) ^ 2 ≤ (((off rel t p).1 - t.cur.1) / 2) ^ 2 + (((off rel t p).2 - t.cur.2) / 2) ^ 2 := by
          have := ra.apart
          ring_nf at this ⊢
          linarith
        have hh7 : 2 ^ e / 2 ^ 7 ≤ h := by rw [hh]; exact Real.le_sqrt_of_sq_le hap
        have hh0 : 0 < h := lt_of_lt_of_le (by positivity) hh7
        have half : (((off rel t p).1 - t.cur.1) / 2) ^ 2 + (((off rel t p).2 - t.cur.2) / 2) ^ 2 = h ^ 2 := by
          rw [hh, Real.sq_sqrt (le_trans (by positivity) hap)]
        obtain ⟨E, η, δ, m, bs, ops, pts, f1, f2, f3, f4, f5⟩ := arcFromA_near hL hA e1 e2 (R := rx) (X0 := t.cur.1) (Y0 := t.cur.2)
          (X1 := (off rel t p).1) (Y1 := (off rel t p).2) ra.radius.1 ra.radius.2 hh0 half (by rw [div_le_iff₀ (by positivity)] at hh7; linarith)
          (hn.small.1.trans hde) (hn.small.2.trans hde) (uo.1.trans hde) (uo.2.trans hde)
          (c := { c with points := [r, r, rot', large', sweep', if rel then x' +. c.placeX else x', if rel then y' +. c.placeY else y'] }) hx hy rfl hrot
          (nr.mono (by rw [div_le_div_iff₀ (by positivity) (by positivity)]; nlinarith))
          (by have := hn.cur.1.mono hle'; rwa [← hcx] at this) (by have := hn.cur.2.mono hle'; rwa [← hcy] at this)
          (by have := hno.1.mono hle; rwa [ho] at this) (by have := hno.2.mono hle; rwa [ho] at this)
        obtain ⟨c2, ops', g1, g2, g3, g4⟩ := ih ts isOpen { c with
          points := pts, path := c.path ++ ops, placeX := (off rel s (x', y')).1, placeY := (off rel s (x', y')).2, lastKey := if rel then 'a' else 'A' }
          { s with cur := off rel s (x', y'), ctrl := .none } (ACmd.after t (.arc rel rx ry rot large sweep p)) (n + 1) hws hst.2 hp'
          ⟨rfl, hr.inPath, hr.start, show (if rel then 'a' else 'A') ∉ quadKeys ∧ (if rel then 'a' else 'A') ∉ cubeKeys by cases rel <;> decide⟩
          ⟨by push_cast; exact hno, by push_cast; exact hn.start.mono (by nlinarith), .none, uo, hn.small'⟩ (by omega) hx hy
        rw [hla, hsw] at f2
        have hrp : 0 < rx := lt_of_lt_of_le (by positivity) ra.radius.1
        refine ⟨c2, ops ++ ops', ?_, ⟨g2.1, g2.2, g2.3, g2.4⟩, .arc (E := E) ?_ f3 f4 f5 g3, ?_⟩
        · show (addSeg t1 >>= fun _ => forEach addSeg ts) c = _
          rw [SM.bind_run, addSeg_writes hW, arc_letter64, f1]
          rw [ho] at g1
          exact g1
        · rw [← ra.circle, ra.upright, abs_of_pos hrp, zero_mul, zero_div]
          exact f2
        · rw [g4, List.append_assoc]

/-- C84 for path data: the numbers and points are at most `2^d` in magnitude, there are at most `N` parameter sets, and the arcs are arcs of
circles. What is missing for the full claim: arcs with different radii or a rotation, or between points very close to each other. -/
theorem C84_path_partial (hL : Accurate) (hA : Angular) {d e N : Nat} (hd : d + 1 ≤ e) (e1 : 7 ≤ e) (e2 : e ≤ 22) (hN : N * 2 ^ d ≤ 16 * 2 ^ e)
    (hN' : N * (N + 1) < 2 ^ 52) (pre : Str) (hpre : ∀ ch ∈ pre, GoEnv.isLetter ch = false) (cmds : List ACmd) (ts : List Str)
    (hw : List.Forall₂ ACmd.WrittenAs cmds ts) (hm : AStarts false cmds) (hp : RoundArcs d e ⟨(0, 0), (0, 0), .none⟩ cmds)
    (hl : (cmds.map ACmd.sets).sum ≤ N) (c : PathCursor F64) (hx : Is c.curX 0) (hy : Is c.curY 0) :
    ∃ c', compilePath (pre ++ ts.flatten) c = (.ok (), c') ∧
      StoredFor (1 / 64 + N * (N + 1) * 2 ^ d / 2 ^ 52) ⟨(0, 0), (0, 0), .none⟩ cmds c'.path ∧ c'.log = c.log := by
  have hs : ∀ t ∈ ts, IsSegment t := by
    intro t ht
    clear hm hpre hp hl
    induction hw with
    | nil => simp at ht
    | @cons cmd _ _ _ h _ ih =>
      simp only [List.mem_cons] at ht
      rcases ht with rfl | ht
      · refine writes_segment (startsSeg_letter ?_) (writes_of_as h)
        cases cmd with
        | plain c => exact letter_mem c
        | arc r => cases r <;> simp [ACmd.letter, pathLetters]
      · exact ih ht
  have hr := rel_init c
  have h0 : Near (((0 : Nat) : ℝ) * ulp d) (num 0 : F64) 0 := by
    have := near_is (is_num rep_zero)
    simpa using this
  have z : Up2 d ((0, 0) : Pnt ℝ) := by
    constructor <;> simp
  obtain ⟨c', ops, h1, h2, h3, h4⟩ := stores_all hL hA hd e1 e2 hN hN' cmds ts false c.init _ ⟨(0, 0), (0, 0), .none⟩ 0 hw hm hp hr
    ⟨⟨h0, h0⟩, ⟨h0, h0⟩, .none, z, z⟩ (by omega) hx hy
  refine ⟨c', ?_, ?_, h2.4⟩
  · rw [compilePath_text pre (fun ch hc => by unfold startsSeg; rw [hpre ch hc]; rfl) ts hs]
    exact h1
  · rw [h4]; exact h3

variable {fuel : Nat} {m : ErrorMode} {root : Elem} {ch : List Elem} {attrs : List Attr} {lead body post : List Token} {s : Svg F64}

omit [Libm] [GoEnv] in
theorem storedFor_ne {w : ℝ} {cmds : List ACmd} {s : St ℝ} {ops : Path} (h : StoredFor w s cmds ops) (hm : AStarts false cmds) (hne : cmds ≠ []) :
    ops ≠ [] := by
  cases h with
  | nil => exact absurd rfl hne
  | @plain _ c cs ops ops' h1 h2 =>
    cases c with
    | move r p ps =>
      simp only [Cmd.segs, exec, step] at h1
      cases h1
      simp
    | _ => exact absurd hm.1 (by decide)
  | arc => exact absurd hm.1 (by decide)

/-- C84 for whole documents: what the path contributes. -/
theorem C84_document_partial (hL : Accurate) (hA : Angular) (h : Parsed fuel m root ch "path".toList attrs lead body post s) {d e N : Nat}
    (hd : d + 1 ≤ e) (e1 : 7 ≤ e) (e2 : e ≤ 22) (hN : N * 2 ^ d ≤ 16 * 2 ^ e) (hN' : N * (N + 1) < 2 ^ 52) (pre : Str)
    (hpre : ∀ ch ∈ pre, GoEnv.isLetter ch = false) (cmds : List ACmd) (ts : List Str) (hw : List.Forall₂ ACmd.WrittenAs cmds ts)
    (hm : AStarts false cmds) (hp : RoundArcs d e ⟨(0, 0), (0, 0), .none⟩ cmds) (hl : (cmds.map ACmd.sets).sum ≤ N) (hne : cmds ≠ [])
    (hv : Given attrs "d" (pre ++ ts.flatten)) :
    Contributes fuel m (lead ++ .start root.name root.attrs :: body) (.start "path".toList attrs) s fun ops =>
      StoredFor (1 / 64 + N * (N + 1) * 2 ^ d / 2 ^ 52) ⟨(0, 0), (0, 0), .none⟩ cmds ops := by
  obtain ⟨l, hl'⟩ := h.result
  refine stands_contributes h.place hl' fun c st hr hx hy hb => ?_
  obtain ⟨pc, h1, h2, -⟩ := C84_path_partial hL hA hd e1 e2 hN hN' pre hpre cmds ts hw hm hp hl c.pc (by rw [hx]; exact is_num rep_zero)
    (by rw [hy]; exact is_num rep_zero)
  refine ⟨_, h2, ?_⟩
  have := path_adds (fuel := fuel) h.distinct hr hv h1
  rwa [if_neg (by simpa using storedFor_ne h2 hm hne)] at this

omit [Libm] in
/-- The circle of an arc that fits is not larger than the numbers allow. -/
theorem roundArc_radius {d e : Nat} (hd : d + 1 ≤ e) {rx ry rot large sweep : ℝ} {p q : P2} (h : RoundArc e rx ry rot large sweep p q) (hp : Up2 d p)
    (hq : Up2 d q) {k : ℝ} (hk : LeastScale |rx| |ry| (rot * Real.pi / 180) p.1 p.2 q.1 q.2 k) : k * |rx| ≤ 3 / 4 * 2 ^ e ∧ |rx| = |ry| ∧ 0 < |rx| := by
  have hrp : 0 < rx := lt_of_lt_of_le (by positivity) h.radius.1
  rw [← h.circle, h.upright, abs_of_pos hrp, zero_mul, zero_div] at hk
  rw [← h.circle, abs_of_pos hrp]
  refine ⟨?_, rfl, hrp⟩
  have hde : (2 : ℝ) ^ d ≤ 2 ^ e / 2 := by
    have : (2 : ℝ) ^ (d + 1) ≤ 2 ^ e := pow_le_pow_right₀ (by norm_num) hd
    rw [pow_succ] at this
    linarith
  have hP : (0 : ℝ) < 2 ^ e := by positivity
  have hne : (p.1, p.2) ≠ (q.1, q.2) := by
    intro hh
    rw [Prod.mk.injEq] at hh
    have := h.apart
    rw [hh.1, hh.2] at this
    have : (0 : ℝ) < (2 ^ e / 2 ^ 6) ^ 2 := by positivity
    linarith
  obtain ⟨h', ρ, t, X, Y, η, δ, g0, g1, g2, g3, g4, g5, g6⟩ := round_arc hrp hne true true
  obtain ⟨k', hk', e1, -⟩ := g6.scale
  have : k' = k := le_antisymm (hk'.2.2 k hk.1 hk.2.1) (hk.2.2 k' hk'.1 hk'.2.1)
  subst this
  change ρ = _ at e1
  rw [← e1, g3]
  refine max_le (by linarith [h.radius.2]) ?_
  have c : ∀ {a b : ℝ}, |a| ≤ 2 ^ d → |b| ≤ 2 ^ d → ((b - a) / 2) ^ 2 ≤ (2 ^ e / 2) ^ 2 := by
    intro a b ha hb
    rw [← sq_abs]
    have : |(b - a) / 2| ≤ 2 ^ e / 2 := by
      rw [abs_div, abs_two]
      linarith [abs_sub b a]
    gcongr
  have := c hp.1 hq.1
  have := c hp.2 hq.2
  refine (abs_le.1 (abs_le_of_sq_le_sq ?_ (by positivity))).2
  nlinarith

omit [Libm] [GoEnv] in
theorem opWithin_mono {a b : ℝ} (h : a ≤ b) {o : Op} {g : GOp ℝ} (ho : OpWithin a o g) : OpWithin b o g := by
  have pt : ∀ {p : Pt} {r : Pnt ℝ}, PtWithin a p r → PtWithin b p r := fun h' => ⟨h'.1.trans_le h, h'.2.trans_le h⟩
  cases ho with
  | moveTo h => exact .moveTo (pt h)
  | lineTo h => exact .lineTo (pt h)
  | quadTo h h' => exact .quadTo (pt h) (pt h')
  | cubicTo h h' h'' => exact .cubicTo (pt h) (pt h') (pt h'')
  | close => exact .close

/-- One tolerance for all, and where the points are. -/
theorem stored_traced {d e : Nat} (hd : d + 1 ≤ e) {w : ℝ} {t : St ℝ} {cmds : List ACmd} {ops : Path} (h : StoredFor w t cmds ops)
    (hp : RoundArcs d e t cmds) (ht : Up2 d t.cur) (ht' : Up2 d t.start) {D : ℝ} (hw : w ≤ D) (hD : 1 / 64 + 2 ^ e / 2 ^ 12 ≤ D) :
    ∃ G, TracedFor t cmds G ∧ List.Forall₂ (OpWithin D) ops G ∧ ∀ o ∈ G, UpOp (e + 4) o := by
  have hP : (0 : ℝ) < 2 ^ e := by positivity
  have e4 : (2 : ℝ) ^ (e + 4) = 16 * 2 ^ e := by rw [pow_add]; ring
  have hde : (2 : ℝ) ^ d ≤ 2 ^ e / 2 := by
    have : (2 : ℝ) ^ (d + 1) ≤ 2 ^ e := pow_le_pow_right₀ (by norm_num) hd
    rw [pow_succ] at this
    linarith
  have up : ∀ {r : Pnt ℝ}, Up2 d r → Up2 (e + 4) r := fun h => ⟨by rw [e4]; linarith [h.1], by rw [e4]; linarith [h.2]⟩
  have upo : ∀ {o : GOp ℝ}, UpOp d o → UpOp (e + 4) o := by
    intro o h
    cases o with
    | moveTo => exact up h
    | lineTo => exact up h
    | quadTo => exact ⟨up h.1, up h.2⟩
    | cubicTo => exact ⟨up h.1, up h.2.1, up h.2.2⟩
    | close => trivial
  induction h with
  | nil => exact ⟨[], .nil, .nil, by simp⟩
  | @plain s c cs ops ops' h1 h2 ih =>
    obtain ⟨⟨p1, p2⟩, hp'⟩ := hp
    have hst := exec_small c.segs ht ht' p2
    obtain ⟨G, g1, g2, g3⟩ := ih hp' hst.1 hst.2
    refine ⟨_, .plain g1, forall₂_append (h1.imp fun _ _ => opWithin_mono hw) g2, ?_⟩
    intro o ho
    rcases List.mem_append.1 ho with ho | ho
    · exact upo (p2 o ho)
    · exact g3 o ho
  | @arc s rel rx ry rot large sweep p cs ops ops' E η δ n bs h1 h2 h3 h4 h5 ih =>
    obtain ⟨⟨ra, up', uo⟩, hp'⟩ := hp
    obtain ⟨G, g1, g2, g3⟩ := ih hp' uo ht'
    obtain ⟨k, hk, ea, eb⟩ := h1.scale
    obtain ⟨r1, r2, r3⟩ := roundArc_radius hd ra ht uo hk
    refine ⟨_, .arc h1 h2 h3 g1, forall₂_append (h4.imp fun _ _ => opWithin_mono (le_trans ?_ hD)) g2, ?_⟩
    · rw [ea]
      have : k * |rx| / 2 ^ 12 ≤ 2 ^ e / 2 ^ 12 := by gcongr; linarith
      linarith
    · intro o ho
      rcases List.mem_append.1 ho with ho | ho
      · obtain ⟨b, hb, rfl⟩ := List.mem_map.1 ho
        have box := fun r hr => arc_box r3 (r2 ▸ r3) h1 h2 hk hb (r := r) hr
        have fin : ∀ {u u0 : ℝ}, |u - u0| ≤ 7 * (k * (|rx| + |ry|)) → |u0| ≤ 2 ^ d → |u| ≤ 2 ^ (e + 4) := by
          intro u u0 a b
          rw [← r2] at a
          rw [e4]
          have := abs_sub_abs_le_abs_sub u u0
          linarith
        have pt : ∀ r, (r = b.p1 ∨ r = b.p2 ∨ r = b.p3) → Up2 (e + 4) r := fun r hr => ⟨fin (box r hr).1 ht.1, fin (box r hr).2 ht.2⟩
        exact ⟨pt _ (.inl rfl), pt _ (.inr (.inl rfl)), pt _ (.inr (.inr rfl))⟩
      · exact g3 o ho
where
  exec_small {d : Nat} : ∀ (gs : List (Bool × Seg ℝ)) {t : St ℝ}, Up2 d t.cur → Up2 d t.start → (∀ o ∈ (exec t gs).1, UpOp d o) →
      Up2 d (exec t gs).2.cur ∧ Up2 d (exec t gs).2.start
    | [], t, h, h', _ => ⟨h, h'⟩
    | (rel, g) :: gs, t, h, h', ho => by
      have h1 := ho _ List.mem_cons_self
      have hs : Up2 d (step rel t g).2.cur ∧ Up2 d (step rel t g).2.start := by
        cases g with
        | move => exact ⟨h1, h1⟩
        | line => exact ⟨h1, h'⟩
        | horiz => exact ⟨h1, h'⟩
        | vert => exact ⟨h1, h'⟩
        | cubic => exact ⟨h1.2.2, h'⟩
        | smooth => exact ⟨h1.2.2, h'⟩
        | quad => exact ⟨h1.2, h'⟩
        | tquad => exact ⟨h1.2, h'⟩
        | close => exact ⟨h', h'⟩
      exact exec_small gs hs.1 hs.2 fun o ho' => ho o (List.mem_cons_of_mem _ ho')

/-- C84, drawn: under the transforms around it and into the target, as in C82. -/
theorem C84_drawn_partial [RxEnv F64] (hL : Accurate) (hA : Angular) (h : Parsed fuel m root ch "path".toList attrs lead body post s)
    (hb : Balanced (lead ++ .start root.name root.attrs :: body ++ [.start "path".toList attrs])) {b c n : Nat} {T : P2 → P2}
    (hT : TransformedUpTo b c (⟨"path".toList, attrs⟩ :: ch) n T) (hq : c + (n + 1) * (b + 2) ≤ 22) {x y w ht : F64} {V : Bounds ℝ} {X Y W H : ℝ}
    (hs : SizedTarget b c s.viewBox x y w ht V X Y W H) (hf : InPlace V X Y W H T) {d e N : Nat} (hd : d + 1 ≤ e) (e1 : 7 ≤ e) (e2 : e + 4 ≤ c)
    (hN : N * 2 ^ d ≤ 16 * 2 ^ e) (hN' : N < 2 ^ 25) (pre : Str) (hpre : ∀ ch ∈ pre, GoEnv.isLetter ch = false) (cmds : List ACmd) (ts : List Str)
    (hw : List.Forall₂ ACmd.WrittenAs cmds ts) (hm : AStarts false cmds) (hp : RoundArcs d e ⟨(0, 0), (0, 0), .none⟩ cmds)
    (hl : (cmds.map ACmd.sets).sum ≤ N) (hne : cmds ≠ []) (hv : Given attrs "d" (pre ++ ts.flatten)) :
    ∃ i pen G, (∀ k, DrawnBy (F := F64) fuel m (lead ++ .start root.name root.attrs :: body) (.start "path".toList attrs) k ↔ k = i) ∧
      DrawnWith s [.target x y w ht] i pen ∧ TracedFor ⟨(0, 0), (0, 0), .none⟩ cmds G ∧
      List.Forall₂ (CallWithin (stretchX (fitted V X Y W H ∘ T) * (1 / 64 + 2 ^ e / 2 ^ 12) + 1 / 64 + (n + 2) * 2 ^ (c + (n + 1) * (b + 2)) / 2 ^ 43)
        (stretchY (fitted V X Y W H ∘ T) * (1 / 64 + 2 ^ e / 2 ^ 12) + 1 / 64 + (n + 2) * 2 ^ (c + (n + 1) * (b + 2)) / 2 ^ 43) (fitted V X Y W H ∘ T)) pen G := by
  have hNN : N * (N + 1) < 2 ^ 52 := by nlinarith
  have hP : (0 : ℝ) < 2 ^ e := by positivity
  have hP7 : (2 : ℝ) ^ 7 ≤ 2 ^ e := pow_le_pow_right₀ (by norm_num) e1
  obtain ⟨i, p, h1, h2, h3⟩ := C84_document_partial hL hA h hd e1 (by omega) hN hNN pre hpre cmds ts hw hm hp hl hne hv
  have z : Up2 d ((0, 0) : Pnt ℝ) := by constructor <;> simp
  obtain ⟨G, g1, g2, g3⟩ := stored_traced hd h3 hp z z (D := 1 / 64 + 2 ^ e / 2 ^ 12) (by
    have a : (N : ℝ) * 2 ^ d ≤ 16 * 2 ^ e := by exact_mod_cast hN
    have b : ((N : ℝ) + 1) ≤ 2 ^ 25 := by exact_mod_cast hN'
    have : (N : ℝ) * (N + 1) * 2 ^ d ≤ 16 * 2 ^ e * 2 ^ 25 := by
      calc (N : ℝ) * (N + 1) * 2 ^ d = N * 2 ^ d * (N + 1) := by ring
        _ ≤ 16 * 2 ^ e * 2 ^ 25 := mul_le_mul a b (by positivity) (by positivity)
    have : (N : ℝ) * (N + 1) * 2 ^ d / 2 ^ 52 ≤ 2 ^ e / 2 ^ 12 := by
      rw [div_le_div_iff₀ (by positivity) (by positivity)]
      nlinarith
    linarith) (le_refl _)
  obtain ⟨i', pen, d1, d2, d3⟩ := C82_drawn_partial hL h hb hT hq hs hf e2 (D := 1 / 64 + 2 ^ e / 2 ^ 12) (by
    rw [pow_add]
    have : (2 : ℝ) ^ e / 2 ^ 12 ≤ 2 ^ e := div_le_self hP.le (by norm_num)
    linarith) g3 ⟨i, p, h1, h2, g2⟩
  exact ⟨i', pen, G, d1, d2, g1, d3⟩

end GoSvg

namespace GoSvg

open Spec SM F64

section Examples

/-- As `nearby_fine`, for angles. -/
theorem nearby_angle {r : ℝ} (h : |r| ≤ 3.2) : Fine (nearby r) r := by
  have f1 := Int.floor_le (r * 2 ^ 51)
  have f2 := Int.lt_floor_add_one (r * 2 ^ 51)
  have b : |⌊r * 2 ^ 51⌋| < 2 ^ 53 := by
    rw [abs_le] at h
    rw [abs_lt]
    constructor
    · have : ((-2 ^ 53 : ℤ) : ℝ) < ((⌊r * 2 ^ 51⌋ : ℤ) : ℝ) := by push_cast; linarith
      exact_mod_cast this
    · have : ((⌊r * 2 ^ 51⌋ : ℤ) : ℝ) < ((2 ^ 53 : ℤ) : ℝ) := by push_cast; linarith
      exact_mod_cast this
  refine ⟨_, roundRat_exact _ ⟨⌊r * 2 ^ 51⌋.natAbs, -51, by rw [abs_lt] at b; omega, by norm_num, by norm_num, ?_⟩, ?_⟩
  · rw [abs_div, Nat.cast_natAbs, Int.cast_abs, abs_of_pos (by positivity : (0 : ℚ) < 2 ^ 51), zpow_neg, div_eq_mul_inv]
    rfl
  · generalize ⌊r * 2 ^ 51⌋ = z at f1 f2
    push_cast
    rw [abs_le]
    constructor <;> linarith

/-- A mathematics library that meets `Accurate` and `Angular`. -/
noncomputable def arcLibm : Libm := { fineLibm with
  atan2 := fun y x => match y with
    | .fin _ 0 _ => if x.sign then roundRat false (1 * goPi) else .fin false 0 (-1074)
    | y => nearby (Complex.arg ⟨valueOf x, valueOf y⟩) }

attribute [local instance] asciiEnv
attribute [local instance] arcLibm

/-- Some rasterizer. -/
local instance exRx84 : RxEnv F64 := ⟨fun _ => (⟨0, 0⟩, ⟨0, 0⟩)⟩

theorem arc_accurate : Accurate where
  piMul := @Accurate.piMul fineLibm fine_accurate
  sin := @Accurate.sin fineLibm fine_accurate
  cos := @Accurate.cos fineLibm fine_accurate
  tan := @Accurate.tan fineLibm fine_accurate
  sin_zero := @Accurate.sin_zero fineLibm fine_accurate
  cos_zero := @Accurate.cos_zero fineLibm fine_accurate
  atan2_zero _ x _ h := by
    show (if x.sign then roundRat false (1 * goPi) else F64.fin false 0 (-1074)) = _
    rw [h]
    rfl

theorem fine_pi : Fine (roundRat false (1 * goPi)) Real.pi := by
  have h := goPi_near
  have hpi := Real.pi_lt_d2
  have hpi0 := Real.pi_pos
  rw [one_mul]
  have hb : |Real.pi| + 1 / 10 ^ 19 ≤ 2 ^ 2 := by
    rw [abs_of_pos hpi0]
    norm_num at hpi ⊢
    linarith
  have := near_round (roundRat_nearest false (pow_bound (E := 2) (by norm_num) (abs_le_of_near h hb))) h (by norm_num) hb
  exact this.mono (by norm_num)

theorem arc_angular : Angular where
  sin x q h _ := by
    by_cases hx : ∃ s e, x = .fin s 0 e
    · obtain ⟨s, e, rfl⟩ := hx
      have hq := valueOf_is h
      simp [valueOf] at hq
      subst hq
      exact ⟨0, ⟨s, 0, -1074, rfl, by norm_num, by simp⟩, by simp⟩
    · have : Libm.sin x = nearby (Real.sin (valueOf x)) := by
        show (match x with | .fin s 0 _ => F64.fin s 0 (-1074) | x => nearby (Real.sin (valueOf x))) = _
        split
        · rename_i s e; exact absurd ⟨s, e, rfl⟩ hx
        · rfl
      rw [this, valueOf_is h]
      exact nearby_fine ((Real.abs_sin_le_one _).trans (by norm_num))
  cos x q h _ := by
    show Fine (nearby _) _
    rw [valueOf_is h]
    exact nearby_fine ((Real.abs_cos_le_one _).trans (by norm_num))
  atan2 y x q p hy hx hne := by
    by_cases hz : ∃ s e, y = .fin s 0 e
    · obtain ⟨s, e, rfl⟩ := hz
      have hq := valueOf_is hy
      simp [valueOf] at hq
      subst hq
      have hp : p ≠ 0 := fun h => hne (by rw [h])
      have e1 : Libm.atan2 (.fin s 0 e) x = if x.sign then roundRat false (1 * goPi) else F64.fin false 0 (-1074) := rfl
      rw [e1]
      obtain ⟨s', m, e', rfl, -, hv⟩ := hx
      have hm : (0 : ℚ) ≤ (m : ℚ) * 2 ^ e' := by positivity
      cases s' with
      | true =>
        refine ⟨Real.pi, by rw [abs_of_pos Real.pi_pos], fine_pi, ?_, by simp⟩
        have : (p : ℝ) ≤ 0 := by simp only [if_true] at hv; exact_mod_cast (by linarith : p ≤ 0)
        rw [Rat.cast_zero, zero_pow two_ne_zero, add_zero, Real.sqrt_sq_eq_abs, abs_of_nonpos this, Real.cos_pi]
        ring
      | false =>
        refine ⟨0, by simpa using Real.pi_pos.le, ⟨0, ⟨false, 0, -1074, rfl, by norm_num, by simp⟩, by simp⟩, ?_, by simp⟩
        have : (0 : ℝ) ≤ p := by simp only [Bool.false_eq_true, if_false] at hv; exact_mod_cast (by linarith : 0 ≤ p)
        rw [Rat.cast_zero, zero_pow two_ne_zero, add_zero, Real.sqrt_sq_eq_abs, abs_of_nonneg this, Real.cos_zero, mul_one]
    · have : Libm.atan2 y x = nearby (Complex.arg ⟨valueOf x, valueOf y⟩) := by
        show (match y with | .fin _ 0 _ => if x.sign then roundRat false (1 * goPi) else F64.fin false 0 (-1074) | y => nearby (Complex.arg ⟨valueOf x, valueOf y⟩)) = _
        split
        · rename_i s e; exact absurd ⟨s, e, rfl⟩ hz
        · rfl
      rw [this, valueOf_is hx, valueOf_is hy]
      have hn : ‖(⟨p, q⟩ : ℂ)‖ = Real.sqrt ((p : ℝ) ^ 2 + (q : ℝ) ^ 2) := by
        rw [Complex.norm_def, Complex.normSq_mk, pow_two, pow_two]
      refine ⟨_, Complex.abs_arg_le_pi _, nearby_angle ((Complex.abs_arg_le_pi _).trans (by linarith [Real.pi_lt_d2])), ?_, ?_⟩
      · rw [← hn, Complex.norm_mul_cos_arg]
      · rw [← hn, Complex.norm_mul_sin_arg]

/-- The half circle of the examples of C78 is an arc as C84 has them. -/
theorem half_round : RoundArcs 6 7 ⟨(0, 0), (0, 0), .none⟩ halfCmds := by
  refine ⟨⟨?_, ?_⟩, ⟨⟨rfl, rfl, ⟨.inl rfl, .inr rfl⟩, by norm_num, ?_⟩, ?_, ?_⟩, ⟨?_, ?_⟩, ⟨?_, ?_⟩, trivial⟩
  · simp [Cmd.args, flat2]; norm_num
  · simp [Cmd.segs, exec, step, off, UpOp, Up2]; norm_num
  · change _ ≤ ((off true (⟨(1, 0), (1, 0), .none⟩ : St ℝ) (-2, 0)).1 - 1) ^ 2 + ((off true (⟨(1, 0), (1, 0), .none⟩ : St ℝ) (-2, 0)).2 - 0) ^ 2
    rw [half_off]
    norm_num
  · constructor <;> norm_num
  · change Up2 6 (off true (⟨(1, 0), (1, 0), .none⟩ : St ℝ) (-2, 0))
    rw [half_off]
    constructor <;> norm_num
  · simp [Cmd.args, flat2]; norm_num
  · change ∀ o ∈ (exec (ACmd.after (⟨(1, 0), (1, 0), .none⟩ : St ℝ) (.arc true 1 1 0 0 1 (-2, 0))) _).1, _
    rw [half_after]
    simp [Cmd.segs, exec, step, off, UpOp, Up2]; norm_num
  · simp [Cmd.args]
  · simp [Cmd.segs, exec, step, UpOp]

/-- The view box of the example documents of `Props/Documents` in binary64. -/
theorem place_box64 {name : String} {attrs : List Attr} {s : Svg F64}
    (h : Parsed 8 .strict placeRoot placeCh name.toList attrs [] placeBody (placePost name) s) : BoxIs s.viewBox 0 0 100 50 := by
  obtain ⟨l, hl⟩ := h.result
  have small : (1 : ℚ) / 2 ^ 1000 ≤ 1 := by rw [div_le_one (by positivity)]; exact one_le_pow₀ (by norm_num)
  refine C58_box (attrs := placeRoot.attrs) (by decide) h.place.noSvg hl (by decide)
    (l := ⟨[int "" "0", int " " "0", int " " "100", int " " "50"], []⟩) (by decide +kernel) (by decide +kernel) (by decide +kernel) ?_
    (small.trans (by norm_num)) (small.trans (by norm_num)) (.inr ⟨not_given (by decide), rfl⟩) (.inr ⟨not_given (by decide), rfl⟩)
  intro q hq
  simp only [List.mem_cons, List.not_mem_nil, or_false] at hq
  rcases hq with rfl | rfl | rfl | rfl
  · exact rep_zero
  · exact rep_zero
  · exact_mod_cast rep_nat (n := 100) (by norm_num)
  · exact_mod_cast rep_nat (n := 50) (by norm_num)

theorem place_transformed64 : TransformedUpTo 1 11 placeCh (0 + countAll [.scale 2 2]) (applyList [.scale 2 2]) := by
  refine .list (l := [fnText "scale" "2" [2]]) (.plain (by decide +kernel) .root) ?_ (.cons (.scaleBoth (by decide)) .nil) ⟨by simp, ?_⟩ ?_
    ⟨[], [("stroke".toList, "blue".toList)], by decide +kernel, by decide⟩
  · intro t ht
    cases List.mem_singleton.1 ht
    exact ex_scale_small
  · intro t ht
    cases ht
    exact .inl (.inr (by decide))
  · intro f hf
    cases List.mem_singleton.1 hf
    norm_num [Fn.Sized]

set_option maxRecDepth 100000 in
/-- The hypotheses of `C84_drawn_partial` are met by `<path d="M1 0a1 1 0 0 1-2 0l2 1z"/>` in a group with `scale(2)`, drawn at twice the size of the view box:
every point is less than a quarter of a pixel away from a path that traces the half circle. -/
example : ∃ (s : Svg F64) (i : Nat) (pen : List (Event F64)) (G : List (GOp ℝ)) (d : ℝ), TracedFor ⟨(0, 0), (0, 0), .none⟩ halfCmds G ∧
    DrawnWith s [.target (num 0) (num 0) (num 200) (num 100)] i pen ∧ d < 1 / 4 ∧ List.Forall₂ (CallWithin d d fun p => (4 * p.1, 4 * p.2)) pen G := by
  obtain ⟨A, hA⟩ : ∃ A, A = attrsOf [("id", "b"), ("d", "M1 0a1 1 0 0 1-2 0l2 1z")] := ⟨_, rfl⟩
  have hd : Distinct A := by rw [hA]; decide
  have hv : Given A "d" ([] ++ halfTexts.flatten) := by rw [hA]; decide
  obtain ⟨s, hs⟩ := place_adds (F := F64) "path" A hd (by rw [hA]; decide +kernel) (by rw [hA]; decide +kernel) fun c st hr hx hy => (by
    obtain ⟨pc, h1, -⟩ := C84_path_partial arc_accurate arc_angular (d := 6) (e := 7) (N := 4) (by norm_num) (by norm_num) (by norm_num) (by norm_num)
      (by norm_num) [] (by simp) halfCmds halfTexts half_written ⟨rfl, rfl, rfl, trivial⟩ half_round (by simp [halfCmds, ACmd.sets, Cmd.segs]) c.pc
      (by rw [hx]; exact is_num rep_zero) (by rw [hy]; exact is_num rep_zero)
    exact ⟨_, path_adds (fuel := 8) hd hr hv h1⟩)
  obtain ⟨b1, b2, b3, b4⟩ := place_box64 hs
  have hbal : Balanced ([] ++ .start placeRoot.name placeRoot.attrs :: placeBody ++ [.start "path".toList A]) := by
    rw [hA]; exact ⟨by decide +kernel, .inr ⟨by decide +kernel, by decide +kernel⟩⟩
  have hT : TransformedUpTo 1 11 (⟨"path".toList, A⟩ :: placeCh) (0 + countAll [.scale 2 2]) (applyList [.scale 2 2]) :=
    .plain (by rw [hA]; decide +kernel) place_transformed64
  have hfun : fitted ⟨0, 0, 100, 50⟩ 0 0 200 100 ∘ applyList [.scale 2 2] = fun p => (4 * p.1, 4 * p.2) := by
    funext p
    simp only [fitted, applyList, Fn.apply, Function.comp, List.foldr, Prod.mk.injEq]
    constructor <;> norm_num <;> ring
  have i200 : Is (num 200 : F64) 200 := is_num (by exact_mod_cast rep_nat (n := 200) (by norm_num))
  have i100 : Is (num 100 : F64) 100 := is_num (by exact_mod_cast rep_nat (n := 100) (by norm_num))
  obtain ⟨i, pen, G, -, h2, h3, h4⟩ := C84_drawn_partial arc_accurate arc_angular hs hbal hT (by norm_num [countAll, Fn.count])
    (x := num 0) (y := num 0) (w := num 200) (ht := num 100) (V := ⟨0, 0, 100, 50⟩) (X := 0) (Y := 0) (W := 200) (H := 100)
    ⟨⟨0, 0, 100, 50, ⟨b1, b2, b3, b4⟩, by norm_num⟩, ⟨0, 0, 200, 100, ⟨is_num rep_zero, is_num rep_zero, i200, i100⟩, by norm_num⟩, by norm_num, 0, by norm_num⟩
    ⟨by norm_num, .inl rfl, .inl rfl, .inl (by norm_num), by simp [fitted, lin, applyList, Fn.apply]⟩ (d := 6) (e := 7) (N := 4)
    (by norm_num) (by norm_num) (by norm_num) (by norm_num) (by norm_num) [] (by simp) halfCmds halfTexts half_written ⟨rfl, rfl, rfl, trivial⟩ half_round
    (by simp [halfCmds, ACmd.sets, Cmd.segs]) (by simp [halfCmds]) hv
  rw [hfun] at h4
  have hx : stretchX (fun p : P2 => (4 * p.1, 4 * p.2)) = 4 := by norm_num [stretchX, lin]
  have hy : stretchY (fun p : P2 => (4 * p.1, 4 * p.2)) = 4 := by norm_num [stretchY, lin]
  rw [hx, hy] at h4
  exact ⟨s, i, pen, G, _, h3, h2, by norm_num [countAll, Fn.count], h4⟩

end Examples

end GoSvg
