import Verif.Lemmas.PathAbs

/-! What path parsing leaves alone, whatever the outcome. -/

set_option linter.unusedSectionVars false

namespace GoSvg

variable {F : Type} [GoFloat F] [GoEnv]

open SM (get modify throw lift panic diverge forEach)
open Spec

/-- A result that is a value or a returned error. -/
def Res.Tame {α : Type} : Res α → Prop
  | .ok _ => True
  | .err _ => True
  | _ => False

/-- A step of the path parser: offset and mode stay, the path and the log grow at the end, the log in warn mode only. -/
structure PStep (c c' : PathCursor F) : Prop where
  curX : c'.curX = c.curX
  curY : c'.curY = c.curY
  mode : c'.errorMode = c.errorMode
  path : ∃ ops, c'.path = c.path ++ ops
  log : ∃ d, c'.log = c.log ++ d ∧ (c.errorMode ≠ .warn → d = [])

theorem pstep_refl (c : PathCursor F) : PStep c c := ⟨rfl, rfl, rfl, ⟨[], by simp⟩, [], by simp, fun _ => rfl⟩

theorem pstep_trans {c d e : PathCursor F} (h1 : PStep c d) (h2 : PStep d e) : PStep c e := by
  obtain ⟨a1, a2, a3, ⟨o1, a4⟩, l1, a5, a6⟩ := h1
  obtain ⟨b1, b2, b3, ⟨o2, b4⟩, l2, b5, b6⟩ := h2
  refine ⟨b1.trans a1, b2.trans a2, b3.trans a3, ⟨o1 ++ o2, by rw [b4, a4, List.append_assoc]⟩, l1 ++ l2,
    by rw [b5, a5, List.append_assoc], fun h => ?_⟩
  rw [a6 h, b6 (by rwa [a3])]; rfl

theorem doLetter_pstep (k : Char) (c : PathCursor F) : PStep c (doLetter k c).2 ∧ (doLetter k c).1.Tame := by
  obtain ⟨path, placeX, placeY, curX, curY, cx, cy, sx, sy, ps, lk, em, ip, lg⟩ := c
  have h := letter_cases ps k
  cases h with
  | cmd cmd hp ha =>
    subst ha
    obtain ⟨c', h1, h2, h3, -⟩ := doLetter_cmd (hp ip)
      (rel_stOf ⟨path, placeX, placeY, curX, curY, cx, cy, sx, sy, cmd.args, lk, em, ip, lg⟩) rfl
    rw [h1]; exact ⟨⟨h2.curX, h2.curY, h2.mode, ⟨_, h3⟩, [], by rw [List.append_nil]; exact h2.log, fun _ => rfl⟩, trivial⟩
  | close r ha =>
    subst ha
    unfold doLetter
    rw [SM.bind_run, seg_close]
    simp only [List.length_nil, if_true, SM.modify_run, doClose]
    refine ⟨?_, trivial⟩
    split
    · exact ⟨rfl, rfl, rfl, ⟨_, rfl⟩, [], by simp [PathCursor.addOps], fun _ => rfl⟩
    · exact ⟨rfl, rfl, rfl, ⟨[], by simp⟩, [], by simp, fun _ => rfl⟩
  | arc r n ha =>
    unfold doLetter
    rw [SM.bind_run, seg_arc]
    obtain ⟨ops, x, y, qs, h, -⟩ := arcLoop_frame (if r then 'a' else 'A') (ps.length / 7) 0
      ⟨path, placeX, placeY, curX, curY, cx, cy, sx, sy, ps, lk, em, ip, lg⟩ _ rfl rfl rfl rfl rfl
    simp only
    rw [h, if_pos (hasSets_flat ha)]
    exact ⟨⟨rfl, rfl, rfl, ⟨ops, rfl⟩, [], by simp, fun _ => rfl⟩, trivial⟩
  | reject k hk h =>
    unfold doLetter
    rw [SM.bind_run, h _ rfl]
    exact ⟨pstep_refl _, trivial⟩
  | unknown k hk =>
    unfold doLetter
    rw [SM.bind_run, seg_unknown _ hk]
    simp only
    by_cases h1 : em = ErrorMode.strict
    · rw [if_pos h1]; exact ⟨pstep_refl _, trivial⟩
    · rw [if_neg h1]
      by_cases h2 : em = ErrorMode.warn
      · rw [if_pos h2]; exact ⟨⟨rfl, rfl, rfl, ⟨[], by simp⟩, _, rfl, fun h => absurd h2 h⟩, trivial⟩
      · rw [if_neg h2]; exact ⟨⟨rfl, rfl, rfl, ⟨[], by simp⟩, [], by simp, fun _ => rfl⟩, trivial⟩

theorem addSeg_pstep (t : Str) (c : PathCursor F) : PStep c (addSeg t c).2 ∧ (addSeg t c).1.Tame := by
  cases t with
  | nil => exact ⟨pstep_refl c, trivial⟩
  | cons k body =>
    obtain ⟨b, ps, h⟩ := getPoints_frame (F := F) body
    rw [show addSeg (k :: body) c = (do getPoints body; doLetter k : PM F Unit) c from rfl, SM.bind_run, h c]
    have hp : PStep c { c with points := ps } := ⟨rfl, rfl, rfl, ⟨[], by simp⟩, [], by simp, fun _ => rfl⟩
    cases b with
    | false => exact ⟨hp, trivial⟩
    | true =>
      obtain ⟨g1, g2⟩ := doLetter_pstep k { c with points := ps }
      exact ⟨pstep_trans hp g1, g2⟩

theorem segs_pstep (ts : List Str) : ∀ c : PathCursor F, PStep c (forEach addSeg ts c).2 ∧ (forEach addSeg ts c).1.Tame := by
  induction ts with
  | nil => intro c; exact ⟨pstep_refl c, trivial⟩
  | cons t ts ih =>
    intro c
    have h1 := addSeg_pstep t c
    show PStep c ((addSeg t >>= fun _ => forEach addSeg ts) c).2 ∧ ((addSeg t >>= fun _ => forEach addSeg ts) c).1.Tame
    rw [SM.bind_run]
    rcases hr : (addSeg t : PM F Unit) c with ⟨r, d⟩
    rw [hr] at h1
    cases r with
    | ok _ => exact ⟨pstep_trans h1.1 (ih d).1, (ih d).2⟩
    | err e => exact ⟨h1.1, trivial⟩
    | panic s => exact absurd h1.2 id
    | diverge => exact absurd h1.2 id

/-- A path element's text: nothing is kept of the path before, offset and mode stay, the log grows in warn mode only, and
the result is a value or a returned error. -/
theorem compilePath_pstep (s : Str) (c : PathCursor F) :
    PStep { c with path := [] } (compilePath s c).2 ∧ (compilePath s c).1.Tame := by
  rw [compilePath_segs]
  obtain ⟨g1, g2⟩ := segs_pstep (segsGo none s) c.init
  exact ⟨⟨g1.1, g1.2, g1.3, g1.4, g1.5⟩, g2⟩

end GoSvg
