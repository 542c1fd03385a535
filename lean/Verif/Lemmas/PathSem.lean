import Verif.Lemmas.PathData

/-! Refinement: each command of the path parser does what its parameter sets do one after the other. -/

set_option linter.unusedSectionVars false
set_option linter.unusedSimpArgs false

namespace GoSvg

variable {F : Type} [GoFloat F] [GoEnv]

open Spec

/-! ### Absolute parameter sets -/

def add2 (p q : Pnt F) : Pnt F := (p.1 +. q.1, p.2 +. q.2)

def abs2 (rel : Bool) : Pnt F → List (Pnt F) → List (Pnt F)
  | _, [] => []
  | cur, p :: ps => let p := if rel then add2 p cur else p; p :: abs2 rel p ps

def abs4 (rel : Bool) : Pnt F → List (Pnt F × Pnt F) → List (Pnt F × Pnt F)
  | _, [] => []
  | cur, p :: ps =>
    let p := if rel then (add2 p.1 cur, add2 p.2 cur) else p
    p :: abs4 rel p.2 ps

def abs6 (rel : Bool) : Pnt F → List (Pnt F × Pnt F × Pnt F) → List (Pnt F × Pnt F × Pnt F)
  | _, [] => []
  | cur, p :: ps =>
    let p := if rel then (add2 p.1 cur, add2 p.2.1 cur, add2 p.2.2 cur) else p
    p :: abs6 rel p.2.2 ps

theorem abs2_false (cur : Pnt F) (ps) : abs2 false cur ps = ps := by
  induction ps generalizing cur with
  | nil => rfl
  | cons p ps ih => simp [abs2, ih]

theorem abs4_false (cur : Pnt F) (ps) : abs4 false cur ps = ps := by
  induction ps generalizing cur with
  | nil => rfl
  | cons p ps ih => simp [abs4, ih]

theorem abs6_false (cur : Pnt F) (ps) : abs6 false cur ps = ps := by
  induction ps generalizing cur with
  | nil => rfl
  | cons p ps ih => simp [abs6, ih]

theorem pointsToAbs_flat2 (ps : List (Pnt F)) : ∀ x y ax ay : F,
    pointsToAbs 2 0 x y ax ay (flat2 ps) = flat2 (abs2 true (x, y) ps) := by
  induction ps with
  | nil => intros; rfl
  | cons p ps ih =>
    intro x y ax ay
    have := ih (p.1 +. x) (p.2 +. y) (p.1 +. x) (p.2 +. y)
    simp only [flat2] at this
    simp [flat2, abs2, pointsToAbs, add2, this]

theorem pointsToAbs_flat4 (ps : List (Pnt F × Pnt F)) : ∀ x y ax ay : F,
    pointsToAbs 4 0 x y ax ay (flat4 ps) = flat4 (abs4 true (x, y) ps) := by
  induction ps with
  | nil => intros; rfl
  | cons p ps ih =>
    intro x y ax ay
    have := ih (p.2.1 +. x) (p.2.2 +. y) (p.2.1 +. x) (p.2.2 +. y)
    simp only [flat4] at this
    simp [flat4, abs4, pointsToAbs, add2, this]

theorem pointsToAbs_flat6 (ps : List (Pnt F × Pnt F × Pnt F)) : ∀ x y ax ay : F,
    pointsToAbs 6 0 x y ax ay (flat6 ps) = flat6 (abs6 true (x, y) ps) := by
  induction ps with
  | nil => intros; rfl
  | cons p ps ih =>
    intro x y ax ay
    have := ih (p.2.2.1 +. x) (p.2.2.2 +. y) (p.2.2.1 +. x) (p.2.2.2 +. y)
    simp only [flat6] at this
    simp [flat6, abs6, pointsToAbs, add2, this]

theorem flat2_length (ps : List (Pnt F)) : (flat2 ps).length = 2 * ps.length := by
  induction ps with
  | nil => rfl
  | cons p ps ih => simp only [flat2, List.flatMap_cons] at *; simp [ih]; omega

theorem flat4_length (ps : List (Pnt F × Pnt F)) : (flat4 ps).length = 4 * ps.length := by
  induction ps with
  | nil => rfl
  | cons p ps ih => simp only [flat4, List.flatMap_cons] at *; simp [ih]; omega

theorem flat6_length (ps : List (Pnt F × Pnt F × Pnt F)) : (flat6 ps).length = 6 * ps.length := by
  induction ps with
  | nil => rfl
  | cons p ps ih => simp only [flat6, List.flatMap_cons] at *; simp [ih]; omega

theorem hasSets_flat {sz : Nat} {ps : List F} {n : Nat} (h : ps.length = sz * (n + 1)) : hasSets sz ps = true := by
  simp only [hasSets, h, Bool.and_eq_true, decide_eq_true_eq, beq_iff_eq]
  refine ⟨?_, Nat.mul_mod_right _ _⟩
  exact Nat.le_mul_of_pos_right sz (Nat.succ_pos n)

theorem fromEnd_append (xs ys : List F) (j : Nat) (h1 : 1 ≤ j) (h : j ≤ ys.length) : fromEnd (xs ++ ys) j = fromEnd ys j := by
  unfold fromEnd at_
  rw [List.length_append, List.getD_eq_getElem?_getD, List.getD_eq_getElem?_getD,
    List.getElem?_append_right (by omega)]
  congr 2
  omega

/-! ### Stored operations -/

/-- The operation as the parser stores it. -/
abbrev sto (c : PathCursor F) (o : GOp F) : Op := GOp.store toFix c.curX c.curY o

theorem lineOps_flat2 (c : PathCursor F) (ps : List (Pnt F)) : lineOps c (flat2 ps) = ps.map fun p => sto c (.lineTo p) := by
  induction ps with
  | nil => rfl
  | cons p ps ih => simp only [flat2, List.flatMap_cons] at *; simp only [List.cons_append, List.nil_append, lineOps, ih]; rfl

theorem quadOps_flat4 (c : PathCursor F) (ps : List (Pnt F × Pnt F)) :
    quadOps c (flat4 ps) = ps.map fun p => sto c (.quadTo p.1 p.2) := by
  induction ps with
  | nil => rfl
  | cons p ps ih => simp only [flat4, List.flatMap_cons] at *; simp only [List.cons_append, List.nil_append, quadOps, ih]; rfl

theorem cubicOps_flat6 (c : PathCursor F) (ps : List (Pnt F × Pnt F × Pnt F)) :
    cubicOps c (flat6 ps) = ps.map fun p => sto c (.cubicTo p.1 p.2.1 p.2.2) := by
  induction ps with
  | nil => rfl
  | cons p ps ih => simp only [flat6, List.flatMap_cons] at *; simp only [List.cons_append, List.nil_append, cubicOps, ih]; rfl

/-! ### What sets of each kind do in the specification -/

theorem exec_append (s : St F) (gs hs : List (Bool × Seg F)) :
    exec s (gs ++ hs) = ((exec s gs).1 ++ (exec (exec s gs).2 hs).1, (exec (exec s gs).2 hs).2) := by
  induction gs generalizing s with
  | nil => rfl
  | cons g gs ih => obtain ⟨r, g⟩ := g; simp only [List.cons_append, exec, ih]

theorem off_eq (rel : Bool) (s : St F) (p : Pnt F) : off rel s p = if rel then add2 p s.cur else p := rfl

/-- The last of a non-empty list. -/
def lastOf {α : Type} (x : α) : List α → α
  | [] => x
  | y :: ys => lastOf y ys

theorem lastOf_snoc {α : Type} (x : α) (xs : List α) : ∃ init, x :: xs = init ++ [lastOf x xs] := by
  induction xs generalizing x with
  | nil => exact ⟨[], rfl⟩
  | cons y ys ih => obtain ⟨i, h⟩ := ih y; exact ⟨x :: i, by simp [lastOf, ← h]⟩

theorem exec_lines (rel : Bool) (ps : List (Pnt F)) : ∀ (p : Pnt F) (s : St F),
    let q := off rel s p
    exec s ((p :: ps).map fun p => (rel, .line p)) = ((q :: abs2 rel q ps).map .lineTo,
      { s with cur := lastOf q (abs2 rel q ps), ctrl := .none }) := by
  induction ps with
  | nil => intro p s; rfl
  | cons p' ps ih =>
    intro p s
    dsimp only at ih
    rw [List.map_cons, exec, step]
    dsimp only
    rw [ih]
    rfl

/-- What follows the first point of a move. -/
theorem exec_lines' (rel : Bool) (ps : List (Pnt F)) (s : St F) (h : s.ctrl = .none) :
    exec s (ps.map fun p => (rel, .line p)) = ((abs2 rel s.cur ps).map .lineTo,
      { s with cur := lastOf s.cur (abs2 rel s.cur ps) }) := by
  cases ps with
  | nil => rfl
  | cons p ps =>
    rw [exec_lines]
    obtain ⟨a, b, c⟩ := s
    simp only at h
    subst h
    rfl

theorem exec_quads (rel : Bool) (ps : List (Pnt F × Pnt F)) : ∀ (p : Pnt F × Pnt F) (s : St F),
    let q := (off rel s p.1, off rel s p.2)
    exec s ((p :: ps).map fun p => (rel, .quad p.1 p.2)) = ((q :: abs4 rel q.2 ps).map (fun p => .quadTo p.1 p.2),
      { s with cur := (lastOf q (abs4 rel q.2 ps)).2, ctrl := .quad (lastOf q (abs4 rel q.2 ps)).1 }) := by
  induction ps with
  | nil => intro p s; rfl
  | cons p' ps ih =>
    intro p s
    dsimp only at ih
    rw [List.map_cons, exec, step]
    dsimp only
    rw [ih]
    cases rel <;> rfl

theorem exec_cubics (rel : Bool) (ps : List (Pnt F × Pnt F × Pnt F)) : ∀ (p : Pnt F × Pnt F × Pnt F) (s : St F),
    let q := (off rel s p.1, off rel s p.2.1, off rel s p.2.2)
    exec s ((p :: ps).map fun p => (rel, .cubic p.1 p.2.1 p.2.2)) =
      ((q :: abs6 rel q.2.2 ps).map (fun p => .cubicTo p.1 p.2.1 p.2.2),
      { s with cur := (lastOf q (abs6 rel q.2.2 ps)).2.2, ctrl := .cubic (lastOf q (abs6 rel q.2.2 ps)).2.1 }) := by
  induction ps with
  | nil => intro p s; rfl
  | cons p' ps ih =>
    intro p s
    dsimp only at ih
    rw [List.map_cons, exec, step]
    dsimp only
    rw [ih]
    cases rel <;> rfl

/-- The values of relative h and v. -/
def absv (rel : Bool) : F → List F → List F
  | _, [] => []
  | cur, x :: xs => let y := if rel then cur +. x else x; y :: absv rel y xs

theorem absv_true (cur : F) (xs : List F) : absv true cur xs = valsToAbs cur xs := by
  induction xs generalizing cur with
  | nil => rfl
  | cons x xs ih => simp [absv, valsToAbs, ih]

theorem absv_false (cur : F) (xs : List F) : absv false cur xs = xs := by
  induction xs generalizing cur with
  | nil => rfl
  | cons x xs ih => simp [absv, ih]

theorem exec_horizs (rel : Bool) (xs : List F) : ∀ (x : F) (s : St F),
    let q := if rel then s.cur.1 +. x else x
    exec s ((x :: xs).map fun x => (rel, .horiz x)) = ((q :: absv rel q xs).map (fun x => .lineTo (x, s.cur.2)),
      { s with cur := (lastOf q (absv rel q xs), s.cur.2), ctrl := .none }) := by
  induction xs with
  | nil => intro p s; rfl
  | cons p' ps ih =>
    intro p s
    dsimp only at ih
    rw [List.map_cons, exec, step]
    dsimp only
    rw [ih]
    rfl

theorem exec_verts (rel : Bool) (xs : List F) : ∀ (x : F) (s : St F),
    let q := if rel then s.cur.2 +. x else x
    exec s ((x :: xs).map fun x => (rel, .vert x)) = ((q :: absv rel q xs).map (fun x => .lineTo (s.cur.1, x)),
      { s with cur := (s.cur.1, lastOf q (absv rel q xs)), ctrl := .none }) := by
  induction xs with
  | nil => intro p s; rfl
  | cons p' ps ih =>
    intro p s
    dsimp only at ih
    rw [List.map_cons, exec, step]
    dsimp only
    rw [ih]
    rfl

/-! ### The relation between the parser's state and the specification's -/

def quadKeys : List Char := ['q', 'Q', 'T', 't']
def cubeKeys : List Char := ['c', 'C', 's', 'S']

/-- The control point remembered. -/
def CtrlRel (k : Char) (x y : F) : Ctrl F → Prop
  | .none => k ∉ quadKeys ∧ k ∉ cubeKeys
  | .quad p => k ∈ quadKeys ∧ x = p.1 ∧ y = p.2
  | .cubic p => k ∈ cubeKeys ∧ x = p.1 ∧ y = p.2

structure Rel (isOpen : Bool) (c : PathCursor F) (s : St F) : Prop where
  cur : (c.placeX, c.placeY) = s.cur
  inPath : c.inPath = isOpen
  start : isOpen = true → (c.pathStartX, c.pathStartY) = s.start
  ctrl : CtrlRel c.lastKey c.cntlPtX c.cntlPtY s.ctrl

/-- What a command leaves alone. -/
structure Same (c c' : PathCursor F) : Prop where
  curX : c'.curX = c.curX
  curY : c'.curY = c.curY
  mode : c'.errorMode = c.errorMode
  log : c'.log = c.log

theorem fromEnd_snoc2 (qs : List (Pnt F)) (q : Pnt F) :
    fromEnd (flat2 (qs ++ [q])) 2 = q.1 ∧ fromEnd (flat2 (qs ++ [q])) 1 = q.2 := by
  have e : flat2 (qs ++ [q]) = flat2 qs ++ [q.1, q.2] := by simp [flat2]
  rw [e, fromEnd_append _ _ _ (by simp) (by simp), fromEnd_append _ _ _ (by simp) (by simp)]
  exact ⟨rfl, rfl⟩

theorem fromEnd_snoc4 (qs : List (Pnt F × Pnt F)) (q : Pnt F × Pnt F) :
    fromEnd (flat4 (qs ++ [q])) 4 = q.1.1 ∧ fromEnd (flat4 (qs ++ [q])) 3 = q.1.2 ∧
    fromEnd (flat4 (qs ++ [q])) 2 = q.2.1 ∧ fromEnd (flat4 (qs ++ [q])) 1 = q.2.2 := by
  have e : flat4 (qs ++ [q]) = flat4 qs ++ [q.1.1, q.1.2, q.2.1, q.2.2] := by simp [flat4]
  rw [e]
  repeat rw [fromEnd_append _ _ _ (by simp) (by simp)]
  exact ⟨rfl, rfl, rfl, rfl⟩

theorem fromEnd_snoc6 (qs : List (Pnt F × Pnt F × Pnt F)) (q : Pnt F × Pnt F × Pnt F) :
    fromEnd (flat6 (qs ++ [q])) 4 = q.2.1.1 ∧ fromEnd (flat6 (qs ++ [q])) 3 = q.2.1.2 ∧
    fromEnd (flat6 (qs ++ [q])) 2 = q.2.2.1 ∧ fromEnd (flat6 (qs ++ [q])) 1 = q.2.2.2 := by
  have e : flat6 (qs ++ [q]) = flat6 qs ++ [q.1.1, q.1.2, q.2.1.1, q.2.1.2, q.2.2.1, q.2.2.2] := by simp [flat6]
  rw [e]
  repeat rw [fromEnd_append _ _ _ (by simp) (by simp)]
  exact ⟨rfl, rfl, rfl, rfl⟩

theorem fromEnd_snoc1 (qs : List F) (q : F) : fromEnd (qs ++ [q]) 1 = q := by
  rw [fromEnd_append _ _ _ (by simp) (by simp)]; rfl

theorem fromEnd_last2 (q : Pnt F) (qs : List (Pnt F)) :
    (fromEnd (flat2 (q :: qs)) 2, fromEnd (flat2 (q :: qs)) 1) = lastOf q qs := by
  obtain ⟨i, h⟩ := lastOf_snoc q qs
  rw [h, (fromEnd_snoc2 i _).1, (fromEnd_snoc2 i _).2]

theorem absPoints2_points (r : Bool) (c : PathCursor F) {ps} (h : c.points = flat2 ps) :
    absPoints 2 r c = { c with points := flat2 (abs2 r (c.placeX, c.placeY) ps) } := by
  cases r with
  | false => rw [abs2_false, ← h]; rfl
  | true => simp only [absPoints, if_true, h, pointsToAbs_flat2]

theorem absPoints4_points (r : Bool) (c : PathCursor F) {ps} (h : c.points = flat4 ps) :
    absPoints 4 r c = { c with points := flat4 (abs4 r (c.placeX, c.placeY) ps) } := by
  cases r with
  | false => rw [abs4_false, ← h]; rfl
  | true => simp only [absPoints, if_true, h, pointsToAbs_flat4]

theorem absPoints6_points (r : Bool) (c : PathCursor F) {ps} (h : c.points = flat6 ps) :
    absPoints 6 r c = { c with points := flat6 (abs6 r (c.placeX, c.placeY) ps) } := by
  cases r with
  | false => rw [abs6_false, ← h]; rfl
  | true => simp only [absPoints, if_true, h, pointsToAbs_flat6]

theorem absVals_points (r : Bool) (x : F) (c : PathCursor F) :
    absVals r x c = { c with points := absv r x c.points } := by
  cases r with
  | false => rw [absv_false]; rfl
  | true => rw [absv_true]; rfl

/-- What the refinement says about one command. -/
def Refines (isOpen : Bool) (cmd : Cmd F) (isOpen' : Bool) : Prop :=
  ∀ (c : PathCursor F) (s : St F), Rel isOpen c s → c.points = cmd.args →
    ∃ c', segSwitch cmd.letter c = (.ok (), c') ∧ Same c c' ∧
      c'.path = c.path ++ (exec s cmd.segs).1.map (sto c) ∧
      Rel isOpen' { c' with lastKey := cmd.letter } (exec s cmd.segs).2

theorem notKeys {a b : Char} (h : ∀ r : Bool, (if r then a else b) ∉ quadKeys ∧ (if r then a else b) ∉ cubeKeys) (r : Bool) (x y : F) :
    CtrlRel (if r then a else b) x y .none := h r

theorem refines_line (isOpen r : Bool) (p : Pnt F) (ps) : Refines isOpen (.line r p ps) isOpen := by
  intro c s h hp
  simp only [Cmd.args] at hp
  refine ⟨doLine (absPoints 2 r c), ?_, ?_, ?_, ?_⟩
  · rw [Cmd.letter, seg_line, if_pos (hasSets_flat (n := ps.length) (by rw [hp, flat2_length]; simp))]
  · rw [absPoints2_points r c hp]; exact ⟨rfl, rfl, rfl, rfl⟩
  · rw [absPoints2_points r c hp, h.cur]
    simp only [doLine, PathCursor.addOps, lineOps_flat2, Cmd.segs, exec_lines]
    simp [abs2, off_eq]
  · rw [absPoints2_points r c hp, h.cur]
    simp only [doLine, PathCursor.addOps, Cmd.segs, exec_lines]
    refine ⟨?_, h.inPath, h.start, ?_⟩
    · simp only [abs2, fromEnd_last2]; rfl
    · exact notKeys (by decide) r _ _

theorem refines_move (isOpen r : Bool) (p : Pnt F) (ps) : Refines isOpen (.move r p ps) true := by
  intro c s h hp
  simp only [Cmd.args] at hp
  refine ⟨doMove (absPoints 2 r c), ?_, ?_, ?_, ?_⟩
  · rw [Cmd.letter, seg_move, if_pos (hasSets_flat (n := ps.length) (by rw [hp, flat2_length]; simp))]
  · rw [absPoints2_points r c hp]; exact ⟨rfl, rfl, rfl, rfl⟩
  · rw [absPoints2_points r c hp, h.cur]
    simp only [doMove, PathCursor.addOps, Cmd.segs, exec, step, exec_lines', abs2]
    have : (flat2 ((if r = true then add2 p s.cur else p) :: abs2 r (if r = true then add2 p s.cur else p) ps)).drop 2
        = flat2 (abs2 r (if r = true then add2 p s.cur else p) ps) := rfl
    rw [this, lineOps_flat2]
    simp only [List.map_cons, List.map_map]
    rfl
  · rw [absPoints2_points r c hp, h.cur]
    simp only [doMove, PathCursor.addOps, Cmd.segs, exec, step, exec_lines', abs2]
    refine ⟨?_, rfl, fun _ => rfl, ?_⟩
    · simp only [fromEnd_last2]; rfl
    · exact notKeys (by decide) r _ _

theorem refines_horiz (isOpen r : Bool) (x : F) (xs) : Refines isOpen (.horiz r x xs) isOpen := by
  intro c s h hp
  simp only [Cmd.args] at hp
  have hx : c.placeX = s.cur.1 := congrArg Prod.fst h.cur
  have hy : c.placeY = s.cur.2 := congrArg Prod.snd h.cur
  refine ⟨doHoriz (absVals r c.placeX c), ?_, ?_, ?_, ?_⟩
  · rw [Cmd.letter, seg_horiz, if_pos (hasSets_flat (n := xs.length) (by rw [hp]; simp))]
  · rw [absVals_points]; exact ⟨rfl, rfl, rfl, rfl⟩
  · rw [absVals_points, hp]
    simp only [doHoriz, PathCursor.addOps, Cmd.segs, exec_horizs, absv, hx, hy]
    simp only [List.map_cons, List.map_map]
    rfl
  · rw [absVals_points, hp]
    simp only [doHoriz, PathCursor.addOps, Cmd.segs, exec_horizs, absv, hx, hy]
    refine ⟨?_, h.inPath, h.start, ?_⟩
    · obtain ⟨i, hi⟩ := lastOf_snoc (if r = true then s.cur.1 +. x else x) (absv r (if r = true then s.cur.1 +. x else x) xs)
      simp only [hi, fromEnd_snoc1, hy]
    · exact notKeys (by decide) r _ _

theorem refines_vert (isOpen r : Bool) (x : F) (xs) : Refines isOpen (.vert r x xs) isOpen := by
  intro c s h hp
  simp only [Cmd.args] at hp
  have hx : c.placeX = s.cur.1 := congrArg Prod.fst h.cur
  have hy : c.placeY = s.cur.2 := congrArg Prod.snd h.cur
  refine ⟨doVert (absVals r c.placeY c), ?_, ?_, ?_, ?_⟩
  · rw [Cmd.letter, seg_vert, if_pos (hasSets_flat (n := xs.length) (by rw [hp]; simp))]
  · rw [absVals_points]; exact ⟨rfl, rfl, rfl, rfl⟩
  · rw [absVals_points, hp]
    simp only [doVert, PathCursor.addOps, Cmd.segs, exec_verts, absv, hx, hy]
    simp only [List.map_cons, List.map_map]
    rfl
  · rw [absVals_points, hp]
    simp only [doVert, PathCursor.addOps, Cmd.segs, exec_verts, absv, hx, hy]
    refine ⟨?_, h.inPath, h.start, ?_⟩
    · obtain ⟨i, hi⟩ := lastOf_snoc (if r = true then s.cur.2 +. x else x) (absv r (if r = true then s.cur.2 +. x else x) xs)
      simp only [hi, fromEnd_snoc1, hx]
    · exact notKeys (by decide) r _ _

theorem refines_quad (isOpen r : Bool) (p : Pnt F × Pnt F) (ps) : Refines isOpen (.quad r p ps) isOpen := by
  intro c s h hp
  simp only [Cmd.args] at hp
  refine ⟨doQuad (absPoints 4 r c), ?_, ?_, ?_, ?_⟩
  · rw [Cmd.letter, seg_quad, if_pos (hasSets_flat (n := ps.length) (by rw [hp, flat4_length]; simp))]
  · rw [absPoints4_points r c hp]; exact ⟨rfl, rfl, rfl, rfl⟩
  · rw [absPoints4_points r c hp, h.cur]
    simp only [doQuad, PathCursor.addOps, quadOps_flat4, Cmd.segs, exec_quads]
    cases r <;> simp [abs4, off_eq]
  · rw [absPoints4_points r c hp, h.cur]
    simp only [doQuad, PathCursor.addOps, Cmd.segs, exec_quads]
    have e : abs4 r s.cur (p :: ps) = (off r s p.1, off r s p.2) :: abs4 r (off r s p.2) ps := by
      cases r <;> rfl
    obtain ⟨i, hi⟩ := lastOf_snoc (off r s p.1, off r s p.2) (abs4 r (off r s p.2) ps)
    obtain ⟨h1, h2, h3, h4⟩ := fromEnd_snoc4 i (lastOf (off r s p.1, off r s p.2) (abs4 r (off r s p.2) ps))
    rw [← hi] at h1 h2 h3 h4
    refine ⟨?_, h.inPath, h.start, ?_⟩
    · simp only [e, h3, h4]
    · simp only [e, h1, h2, Cmd.letter]
      exact ⟨by cases r <;> decide, rfl, rfl⟩

theorem refines_cubic (isOpen r : Bool) (p : Pnt F × Pnt F × Pnt F) (ps) : Refines isOpen (.cubic r p ps) isOpen := by
  intro c s h hp
  simp only [Cmd.args] at hp
  refine ⟨doCubic (absPoints 6 r c), ?_, ?_, ?_, ?_⟩
  · rw [Cmd.letter, seg_cubic, if_pos (hasSets_flat (n := ps.length) (by rw [hp, flat6_length]; simp))]
  · rw [absPoints6_points r c hp]; exact ⟨rfl, rfl, rfl, rfl⟩
  · rw [absPoints6_points r c hp, h.cur]
    simp only [doCubic, PathCursor.addOps, cubicOps_flat6, Cmd.segs, exec_cubics]
    cases r <;> simp [abs6, off_eq]
  · rw [absPoints6_points r c hp, h.cur]
    simp only [doCubic, PathCursor.addOps, Cmd.segs, exec_cubics]
    have e : abs6 r s.cur (p :: ps) = (off r s p.1, off r s p.2.1, off r s p.2.2) :: abs6 r (off r s p.2.2) ps := by
      cases r <;> rfl
    obtain ⟨i, hi⟩ := lastOf_snoc (off r s p.1, off r s p.2.1, off r s p.2.2) (abs6 r (off r s p.2.2) ps)
    obtain ⟨h1, h2, h3, h4⟩ := fromEnd_snoc6 i (lastOf (off r s p.1, off r s p.2.1, off r s p.2.2) (abs6 r (off r s p.2.2) ps))
    rw [← hi] at h1 h2 h3 h4
    refine ⟨?_, h.inPath, h.start, ?_⟩
    · simp only [e, h3, h4]
    · simp only [e, h1, h2, Cmd.letter]
      exact ⟨by cases r <;> decide, rfl, rfl⟩

theorem refines_close (r : Bool) : Refines (F := F) true (.close r) false := by
  intro c s h hp
  simp only [Cmd.args] at hp
  refine ⟨doClose c, ?_, ?_, ?_, ?_⟩
  · rw [Cmd.letter, seg_close, hp]; rfl
  · simp only [doClose, h.inPath, if_true]; exact ⟨rfl, rfl, rfl, rfl⟩
  · simp only [doClose, h.inPath, if_true, PathCursor.addOps, Cmd.segs, exec, step]; rfl
  · simp only [doClose, h.inPath, if_true, PathCursor.addOps, Cmd.segs, exec, step]
    exact ⟨h.start rfl, rfl, by simp, notKeys (by decide) r _ _⟩

theorem smoothQuad_loop (isOpen rel : Bool) (k : Char) (hk : k ∈ ['T', 't']) (ps : List (Pnt F)) : ∀ (c : PathCursor F) (s : St F), Rel isOpen c s →
    let e := exec s (ps.map fun p => (rel, .tquad p))
    let c' := smoothQuadLoop k c (flat2 (abs2 rel s.cur ps))
    Same c c' ∧ c'.path = c.path ++ e.1.map (sto c) ∧ Rel isOpen c' e.2 ∧ (ps ≠ [] → c'.lastKey = k) := by
  induction ps with
  | nil => intro c s h; exact ⟨⟨rfl, rfl, rfl, rfl⟩, by simp [exec, abs2, flat2, smoothQuadLoop], h, by simp⟩
  | cons p ps ih =>
    intro c s h
    have hx : c.placeX = s.cur.1 := congrArg Prod.fst h.cur
    have hy : c.placeY = s.cur.2 := congrArg Prod.snd h.cur
    have hkk : k ∈ quadKeys := by
      simp only [List.mem_cons, List.not_mem_nil, or_false] at hk
      rcases hk with rfl | rfl <;> decide
    -- the state after one set
    have hctrl : (reflectControlQuad c).cntlPtX = (match s.ctrl with | .quad r => mirror s.cur r | _ => s.cur).1 ∧
        (reflectControlQuad c).cntlPtY = (match s.ctrl with | .quad r => mirror s.cur r | _ => s.cur).2 := by
      have hc := h.ctrl
      unfold reflectControlQuad
      cases hs : s.ctrl with
      | none =>
        rw [hs] at hc
        rw [if_neg (show ¬ c.lastKey ∈ ['q', 'Q', 'T', 't'] from hc.1)]
        exact ⟨hx, hy⟩
      | cubic q =>
        rw [hs] at hc
        have hn : ¬ c.lastKey ∈ ['q', 'Q', 'T', 't'] := by
          have := hc.1
          simp only [cubeKeys, List.mem_cons, List.not_mem_nil, or_false] at this
          rcases this with h | h | h | h <;> rw [h] <;> decide
        rw [if_neg hn]
        exact ⟨hx, hy⟩
      | quad q =>
        rw [hs] at hc
        rw [if_pos (show c.lastKey ∈ ['q', 'Q', 'T', 't'] from hc.1)]
        simp only [reflect, mirror, hx, hy, hc.2.1, hc.2.2, and_self]
    have hsame : (reflectControlQuad c).path = c.path ∧ (reflectControlQuad c).curX = c.curX ∧
        (reflectControlQuad c).curY = c.curY ∧ (reflectControlQuad c).errorMode = c.errorMode ∧
        (reflectControlQuad c).log = c.log ∧ (reflectControlQuad c).inPath = c.inPath ∧
        (reflectControlQuad c).pathStartX = c.pathStartX ∧ (reflectControlQuad c).pathStartY = c.pathStartY := by
      unfold reflectControlQuad; split <;> exact ⟨rfl, rfl, rfl, rfl, rfl, rfl, rfl, rfl⟩
    obtain ⟨e1, e2, e3, e4, e5, e6, e7, e8⟩ := hsame
    let q := off rel s p
    have hq : abs2 rel s.cur (p :: ps) = q :: abs2 rel q ps := rfl
    let c1 : PathCursor F := { (reflectControlQuad c).addOps [.quadTo
        ((reflectControlQuad c).fixPt (reflectControlQuad c).cntlPtX (reflectControlQuad c).cntlPtY)
        ((reflectControlQuad c).fixPt q.1 q.2)] with lastKey := k, placeX := q.1, placeY := q.2 }
    have hloop : smoothQuadLoop k c (flat2 (abs2 rel s.cur (p :: ps))) = smoothQuadLoop k c1 (flat2 (abs2 rel q ps)) := by
      rw [hq]; rfl
    have hrel1 : Rel isOpen c1 (step rel s (.tquad p)).2 := by
      refine ⟨rfl, ?_, ?_, hkk, ?_, ?_⟩
      · exact e6.trans h.inPath
      · intro ho
        have := h.start ho
        simp only [c1, PathCursor.addOps, e7, e8, step]
        exact this
      · exact hctrl.1
      · exact hctrl.2
    have hcur : (step rel s (.tquad p)).2.cur = q := rfl
    obtain ⟨i1, i2, i3, i4⟩ := ih c1 _ hrel1
    rw [hcur] at i1 i2 i3 i4
    simp only [List.map_cons, exec]
    rw [hloop]
    refine ⟨?_, ?_, i3, ?_⟩
    · exact ⟨i1.1.trans e2, i1.2.trans e3, i1.3.trans e4, i1.4.trans e5⟩
    · rw [i2]
      have hsto : sto c1 = sto c := by
        funext o
        simp only [sto]
        rw [show c1.curX = c.curX from e2, show c1.curY = c.curY from e3]
      rw [hsto]
      have : c1.path = c.path ++ [sto c (step rel s (.tquad p)).1] := by
        simp only [c1, PathCursor.addOps, e1]
        congr 1
        simp only [PathCursor.fixPt, hctrl.1, hctrl.2, e2, e3]
        rfl
      rw [this]
      simp
    · intro _
      cases ps with
      | nil => rfl
      | cons p' ps => exact i4 (by simp)

theorem refines_tquad (isOpen r : Bool) (p : Pnt F) (ps) : Refines isOpen (.tquad r p ps) isOpen := by
  intro c s h hp
  simp only [Cmd.args] at hp
  have hk : (if r then 't' else 'T') ∈ ['T', 't'] := by cases r <;> decide
  have hrel : Rel isOpen { c with points := flat2 (abs2 r s.cur (p :: ps)) } s := ⟨h.cur, h.inPath, h.start, h.ctrl⟩
  obtain ⟨h1, h2, h3, h4⟩ := smoothQuad_loop isOpen r _ hk (p :: ps) _ _ hrel
  refine ⟨smoothQuadLoop (if r then 't' else 'T') (absPoints 2 r c) (absPoints 2 r c).points, ?_, ?_, ?_, ?_⟩
  · rw [Cmd.letter, seg_tquad, if_pos (hasSets_flat (n := ps.length) (by rw [hp, flat2_length]; simp))]
  · rw [absPoints2_points r c hp, h.cur]; exact ⟨h1.1, h1.2, h1.3, h1.4⟩
  · rw [absPoints2_points r c hp, h.cur]; exact h2
  · rw [absPoints2_points r c hp, h.cur]
    refine ⟨h3.cur, h3.inPath, h3.start, ?_⟩
    have := h3.ctrl
    rw [h4 (by simp)] at this
    exact this

theorem smoothCube_loop (isOpen rel : Bool) (k : Char) (hk : k ∈ ['S', 's']) (ps : List (Pnt F × Pnt F)) :
    ∀ (c : PathCursor F) (s : St F), Rel isOpen c s →
    let e := exec s (ps.map fun p => (rel, .smooth p.1 p.2))
    let c' := smoothCubeLoop k c (flat4 (abs4 rel s.cur ps))
    Same c c' ∧ c'.path = c.path ++ e.1.map (sto c) ∧ Rel isOpen c' e.2 ∧ (ps ≠ [] → c'.lastKey = k) := by
  induction ps with
  | nil => intro c s h; exact ⟨⟨rfl, rfl, rfl, rfl⟩, by simp [exec, abs4, flat4, smoothCubeLoop], h, by simp⟩
  | cons p ps ih =>
    intro c s h
    have hx : c.placeX = s.cur.1 := congrArg Prod.fst h.cur
    have hy : c.placeY = s.cur.2 := congrArg Prod.snd h.cur
    have hkk : k ∈ cubeKeys := by
      simp only [List.mem_cons, List.not_mem_nil, or_false] at hk
      rcases hk with rfl | rfl <;> decide
    have hctrl : (reflectControlCube c).cntlPtX = (match s.ctrl with | .cubic r => mirror s.cur r | _ => s.cur).1 ∧
        (reflectControlCube c).cntlPtY = (match s.ctrl with | .cubic r => mirror s.cur r | _ => s.cur).2 := by
      have hc := h.ctrl
      unfold reflectControlCube
      cases hs : s.ctrl with
      | none =>
        rw [hs] at hc
        rw [if_neg (show ¬ c.lastKey ∈ ['c', 'C', 's', 'S'] from hc.2)]
        exact ⟨hx, hy⟩
      | quad q =>
        rw [hs] at hc
        have hn : ¬ c.lastKey ∈ ['c', 'C', 's', 'S'] := by
          have := hc.1
          simp only [quadKeys, List.mem_cons, List.not_mem_nil, or_false] at this
          rcases this with h | h | h | h <;> rw [h] <;> decide
        rw [if_neg hn]
        exact ⟨hx, hy⟩
      | cubic q =>
        rw [hs] at hc
        rw [if_pos (show c.lastKey ∈ ['c', 'C', 's', 'S'] from hc.1)]
        simp only [reflect, mirror, hx, hy, hc.2.1, hc.2.2, and_self]
    have hsame : (reflectControlCube c).path = c.path ∧ (reflectControlCube c).curX = c.curX ∧
        (reflectControlCube c).curY = c.curY ∧ (reflectControlCube c).errorMode = c.errorMode ∧
        (reflectControlCube c).log = c.log ∧ (reflectControlCube c).inPath = c.inPath ∧
        (reflectControlCube c).pathStartX = c.pathStartX ∧ (reflectControlCube c).pathStartY = c.pathStartY := by
      unfold reflectControlCube; split <;> exact ⟨rfl, rfl, rfl, rfl, rfl, rfl, rfl, rfl⟩
    obtain ⟨e1, e2, e3, e4, e5, e6, e7, e8⟩ := hsame
    let q := (off rel s p.1, off rel s p.2)
    have hq : abs4 rel s.cur (p :: ps) = q :: abs4 rel q.2 ps := by cases rel <;> rfl
    let c1 : PathCursor F := { (reflectControlCube c).addOps [.cubicTo
        ((reflectControlCube c).fixPt (reflectControlCube c).cntlPtX (reflectControlCube c).cntlPtY)
        ((reflectControlCube c).fixPt q.1.1 q.1.2) ((reflectControlCube c).fixPt q.2.1 q.2.2)] with
      lastKey := k, cntlPtX := q.1.1, cntlPtY := q.1.2, placeX := q.2.1, placeY := q.2.2 }
    have hloop : smoothCubeLoop k c (flat4 (abs4 rel s.cur (p :: ps))) = smoothCubeLoop k c1 (flat4 (abs4 rel q.2 ps)) := by
      rw [hq]; rfl
    have hrel1 : Rel isOpen c1 (step rel s (.smooth p.1 p.2)).2 := by
      refine ⟨rfl, ?_, ?_, hkk, rfl, rfl⟩
      · exact e6.trans h.inPath
      · intro ho
        have := h.start ho
        simp only [c1, PathCursor.addOps, e7, e8, step]
        exact this
    have hcur : (step rel s (.smooth p.1 p.2)).2.cur = q.2 := rfl
    obtain ⟨i1, i2, i3, i4⟩ := ih c1 _ hrel1
    rw [hcur] at i1 i2 i3 i4
    simp only [List.map_cons, exec]
    rw [hloop]
    refine ⟨?_, ?_, i3, ?_⟩
    · exact ⟨i1.1.trans e2, i1.2.trans e3, i1.3.trans e4, i1.4.trans e5⟩
    · rw [i2]
      have hsto : sto c1 = sto c := by
        funext o
        simp only [sto]
        rw [show c1.curX = c.curX from e2, show c1.curY = c.curY from e3]
      rw [hsto]
      have : c1.path = c.path ++ [sto c (step rel s (.smooth p.1 p.2)).1] := by
        simp only [c1, PathCursor.addOps, e1]
        congr 1
        simp only [PathCursor.fixPt, hctrl.1, hctrl.2, e2, e3]
        rfl
      rw [this]
      simp
    · intro _
      cases ps with
      | nil => rfl
      | cons p' ps => exact i4 (by simp)

theorem refines_smooth (isOpen r : Bool) (p : Pnt F × Pnt F) (ps) : Refines isOpen (.smooth r p ps) isOpen := by
  intro c s h hp
  simp only [Cmd.args] at hp
  have hk : (if r then 's' else 'S') ∈ ['S', 's'] := by cases r <;> decide
  have hrel : Rel isOpen { c with points := flat4 (abs4 r s.cur (p :: ps)) } s := ⟨h.cur, h.inPath, h.start, h.ctrl⟩
  obtain ⟨h1, h2, h3, h4⟩ := smoothCube_loop isOpen r _ hk (p :: ps) _ _ hrel
  refine ⟨smoothCubeLoop (if r then 's' else 'S') (absPoints 4 r c) (absPoints 4 r c).points, ?_, ?_, ?_, ?_⟩
  · rw [Cmd.letter, seg_smooth, if_pos (hasSets_flat (n := ps.length) (by rw [hp, flat4_length]; simp))]
  · rw [absPoints4_points r c hp, h.cur]; exact ⟨h1.1, h1.2, h1.3, h1.4⟩
  · rw [absPoints4_points r c hp, h.cur]; exact h2
  · rw [absPoints4_points r c hp, h.cur]
    refine ⟨h3.cur, h3.inPath, h3.start, ?_⟩
    have := h3.ctrl
    rw [h4 (by simp)] at this
    exact this

/-- Whether a subpath is open after a command. -/
def opens (isOpen : Bool) : Cmd F → Bool
  | .move .. => true
  | .close _ => false
  | _ => isOpen

theorem startsWithMoves_cons {isOpen : Bool} {cmd : Cmd F} {cs} (h : StartsWithMoves isOpen (cmd :: cs)) :
    StartsWithMoves (opens isOpen cmd) cs ∧ Refines isOpen cmd (opens isOpen cmd) := by
  cases cmd with
  | move r p ps => exact ⟨h, refines_move _ _ _ _⟩
  | close r => obtain ⟨rfl, h⟩ := h; exact ⟨h, refines_close r⟩
  | line r p ps => exact ⟨h.2, refines_line _ _ _ _⟩
  | horiz r x xs => exact ⟨h.2, refines_horiz _ _ _ _⟩
  | vert r x xs => exact ⟨h.2, refines_vert _ _ _ _⟩
  | cubic r p ps => exact ⟨h.2, refines_cubic _ _ _ _⟩
  | smooth r p ps => exact ⟨h.2, refines_smooth _ _ _ _⟩
  | quad r p ps => exact ⟨h.2, refines_quad _ _ _ _⟩
  | tquad r p ps => exact ⟨h.2, refines_tquad _ _ _ _⟩

end GoSvg
