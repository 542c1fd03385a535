import Verif.Lemmas.Tokens
import Verif.Spec.SvgPath

/-! The path parser against the one-set-at-a-time semantics. -/

set_option linter.unusedSectionVars false
set_option linter.unusedSimpArgs false

namespace GoSvg

variable {F : Type} [GoFloat F] [GoEnv]

open SM (get modify throw lift panic diverge forEach)
open Spec

/-! ### One letter at a time -/

/-- The arity check without the conversion. -/
def hasSets (sz : Nat) (ps : List F) : Bool := decide (sz ≤ ps.length) && ps.length % sz == 0

theorem hasSetsOrMore_run (sz : Nat) (rel : Bool) (c : PathCursor F) : hasSetsOrMore sz rel c =
    if hasSets sz c.points then
      (.ok true, if rel then { c with points := pointsToAbs sz 0 c.placeX c.placeY c.placeX c.placeY c.points } else c)
    else (.ok false, c) := by
  unfold hasSetsOrMore hasSets
  simp only [SM.bind_run, SM.get_run]
  cases h : (decide (sz ≤ c.points.length) && c.points.length % sz == 0) with
  | true => cases rel <;> rfl
  | false => rfl

/-- A command with an arity check and a state update. -/
theorem checked_run (sz : Nat) (rel : Bool) (f : PathCursor F → PathCursor F) (c : PathCursor F) :
    (do if !(← hasSetsOrMore sz rel) then throw .paramMismatch
        modify f : PM F Unit) c =
    if hasSets sz c.points then
      (.ok (), f (if rel then { c with points := pointsToAbs sz 0 c.placeX c.placeY c.placeX c.placeY c.points } else c))
    else (.err .paramMismatch, c) := by
  rw [SM.bind_run, hasSetsOrMore_run]
  cases h : hasSets sz c.points with
  | true => simp [SM.bind_run]
  | false => simp [SM.bind_run]

section Switch
variable (c : PathCursor F)

/-- The points made absolute. -/
def absPoints (sz : Nat) (rel : Bool) (c : PathCursor F) : PathCursor F :=
  if rel then { c with points := pointsToAbs sz 0 c.placeX c.placeY c.placeX c.placeY c.points } else c

def doMove (c : PathCursor F) : PathCursor F :=
  let sx := at_ c.points 0
  let sy := at_ c.points 1
  let c := { c with pathStartX := sx, pathStartY := sy, inPath := true }
  let c := c.addOps (.moveTo (c.fixPt sx sy) :: lineOps c (c.points.drop 2))
  { c with placeX := fromEnd c.points 2, placeY := fromEnd c.points 1 }

def doLine (c : PathCursor F) : PathCursor F :=
  let c := c.addOps (lineOps c c.points)
  { c with placeX := fromEnd c.points 2, placeY := fromEnd c.points 1 }

def doVert (c : PathCursor F) : PathCursor F :=
  let c := c.addOps (c.points.map fun p => .lineTo (c.fixPt c.placeX p))
  { c with placeY := fromEnd c.points 1 }

def doHoriz (c : PathCursor F) : PathCursor F :=
  let c := c.addOps (c.points.map fun p => .lineTo (c.fixPt p c.placeY))
  { c with placeX := fromEnd c.points 1 }

def doQuad (c : PathCursor F) : PathCursor F :=
  let c := c.addOps (quadOps c c.points)
  { c with
    cntlPtX := fromEnd c.points 4, cntlPtY := fromEnd c.points 3
    placeX := fromEnd c.points 2, placeY := fromEnd c.points 1 }

def doCubic (c : PathCursor F) : PathCursor F :=
  let c := c.addOps (cubicOps c c.points)
  { c with
    cntlPtX := fromEnd c.points 4, cntlPtY := fromEnd c.points 3
    placeX := fromEnd c.points 2, placeY := fromEnd c.points 1 }

def doClose (c : PathCursor F) : PathCursor F :=
  if c.inPath then { c.addOps [.close] with placeX := c.pathStartX, placeY := c.pathStartY, inPath := false } else c

/-- The relative values of v and h made absolute. -/
def absVals (rel : Bool) (x : F) (c : PathCursor F) : PathCursor F :=
  if rel then { c with points := valsToAbs x c.points } else c

theorem seg_close (r : Bool) : segSwitch (if r then 'z' else 'Z') c =
    if c.points.length = 0 then (.ok (), doClose c) else (.err .paramMismatch, c) := by
  cases r <;>
  · simp only [segSwitch, SM.bind_run, SM.get_run, Bool.false_eq_true, if_true, if_false]
    by_cases h : c.points.length = 0
    · simp only [h, ne_eq, not_true_eq_false, if_false, if_true, SM.pure_run, doClose]
      split <;> rfl
    · simp only [h, ne_eq, not_false_eq_true, if_true, if_false, SM.throw_run, SM.bind_run]

theorem seg_move (r : Bool) : segSwitch (if r then 'm' else 'M') c =
    if hasSets 2 c.points then (.ok (), doMove (absPoints 2 r c)) else (.err .paramMismatch, c) := by
  cases r <;> exact checked_run 2 _ doMove c

theorem seg_line (r : Bool) : segSwitch (if r then 'l' else 'L') c =
    if hasSets 2 c.points then (.ok (), doLine (absPoints 2 r c)) else (.err .paramMismatch, c) := by
  cases r <;> exact checked_run 2 _ doLine c

theorem valsToAbs_length (x : F) (ps : List F) : (valsToAbs x ps).length = ps.length := by
  induction ps generalizing x with
  | nil => rfl
  | cons p ps ih => simp [valsToAbs, ih]

theorem hasSets_vals (x : F) (ps : List F) : hasSets 1 (valsToAbs x ps) = hasSets 1 ps := by
  simp [hasSets, valsToAbs_length]

theorem absVals_points_empty {r : Bool} {x : F} {c : PathCursor F} (h : hasSets 1 c.points = false) : absVals r x c = c := by
  cases r with
  | false => rfl
  | true =>
    have : c.points = [] := by
      simp [hasSets] at h
      cases hp : c.points with
      | nil => rfl
      | cons a as => rw [hp] at h; simp [Nat.mod_one] at h
    obtain ⟨⟩ := c
    simp only at this
    subst this
    rfl

theorem seg_vert (r : Bool) : segSwitch (if r then 'v' else 'V') c =
    if hasSets 1 c.points then (.ok (), doVert (absVals r c.placeY c)) else (.err .paramMismatch, c) := by
  have key : segSwitch (if r then 'v' else 'V') c =
      if hasSets 1 (absVals r c.placeY c).points then (.ok (), doVert (absVals r c.placeY c))
      else (.err .paramMismatch, absVals r c.placeY c) := by
    cases r
    · exact checked_run 1 false doVert c
    · exact checked_run 1 false doVert { c with points := valsToAbs c.placeY c.points }
  rw [key]
  have e : hasSets 1 (absVals r c.placeY c).points = hasSets 1 c.points := by cases r <;> simp [absVals, hasSets_vals]
  rw [e]
  cases h : hasSets 1 c.points with
  | true => rfl
  | false => simp [absVals_points_empty h]

theorem seg_horiz (r : Bool) : segSwitch (if r then 'h' else 'H') c =
    if hasSets 1 c.points then (.ok (), doHoriz (absVals r c.placeX c)) else (.err .paramMismatch, c) := by
  have key : segSwitch (if r then 'h' else 'H') c =
      if hasSets 1 (absVals r c.placeX c).points then (.ok (), doHoriz (absVals r c.placeX c))
      else (.err .paramMismatch, absVals r c.placeX c) := by
    cases r
    · exact checked_run 1 false doHoriz c
    · exact checked_run 1 false doHoriz { c with points := valsToAbs c.placeX c.points }
  rw [key]
  have e : hasSets 1 (absVals r c.placeX c).points = hasSets 1 c.points := by cases r <;> simp [absVals, hasSets_vals]
  rw [e]
  cases h : hasSets 1 c.points with
  | true => rfl
  | false => simp [absVals_points_empty h]

theorem seg_quad (r : Bool) : segSwitch (if r then 'q' else 'Q') c =
    if hasSets 4 c.points then (.ok (), doQuad (absPoints 4 r c)) else (.err .paramMismatch, c) := by
  cases r <;> exact checked_run 4 _ doQuad c

theorem seg_tquad (r : Bool) : segSwitch (if r then 't' else 'T') c =
    if hasSets 2 c.points then
      (.ok (), smoothQuadLoop (if r then 't' else 'T') (absPoints 2 r c) (absPoints 2 r c).points)
    else (.err .paramMismatch, c) := by
  cases r
  · exact checked_run 2 _ (fun c => smoothQuadLoop 'T' c c.points) c
  · exact checked_run 2 _ (fun c => smoothQuadLoop 't' c c.points) c

theorem seg_cubic (r : Bool) : segSwitch (if r then 'c' else 'C') c =
    if hasSets 6 c.points then (.ok (), doCubic (absPoints 6 r c)) else (.err .paramMismatch, c) := by
  cases r <;> exact checked_run 6 _ doCubic c

theorem seg_smooth (r : Bool) : segSwitch (if r then 's' else 'S') c =
    if hasSets 4 c.points then
      (.ok (), smoothCubeLoop (if r then 's' else 'S') (absPoints 4 r c) (absPoints 4 r c).points)
    else (.err .paramMismatch, c) := by
  cases r
  · exact checked_run 4 _ (fun c => smoothCubeLoop 'S' c c.points) c
  · exact checked_run 4 _ (fun c => smoothCubeLoop 's' c c.points) c

theorem seg_arc (r : Bool) : segSwitch (if r then 'a' else 'A') c =
    if hasSets 7 c.points then (.ok (), arcLoop (if r then 'a' else 'A') (c.points.length / 7) 0 c)
    else (.err .paramMismatch, c) := by
  cases r
  · exact checked_run 7 false (fun c => arcLoop 'A' (c.points.length / 7) 0 c) c
  · exact checked_run 7 false (fun c => arcLoop 'a' (c.points.length / 7) 0 c) c

/-- The letters of the path commands. -/
def pathLetters : List Char :=
  ['z', 'Z', 'm', 'M', 'l', 'L', 'v', 'V', 'h', 'H', 'q', 'Q', 't', 'T', 'c', 'C', 's', 'S', 'a', 'A']

theorem seg_unknown {k : Char} (hk : k ∉ pathLetters) : segSwitch k c =
    if c.errorMode = ErrorMode.strict then (.err .commandUnknown, c)
    else if c.errorMode = ErrorMode.warn then (.ok (), { c with log := c.log ++ [.ignoringCommand k] })
    else (.ok (), c) := by
  simp only [pathLetters, List.mem_cons, List.not_mem_nil, or_false, not_or] at hk
  unfold segSwitch
  split <;> first | (exfalso; simp at hk; done) | skip
  simp only [SM.bind_run, SM.get_run]
  by_cases h1 : c.errorMode = ErrorMode.strict
  · simp [h1, SM.bind_run]
  · by_cases h2 : c.errorMode = ErrorMode.warn
    · simp [SM.bind_run, h2, ErrorMode.warn, ErrorMode.strict]
    · simp [SM.bind_run, h1, h2]

end Switch

end GoSvg
