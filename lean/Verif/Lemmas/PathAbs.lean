import Verif.Lemmas.PathSplit

/-! Relative commands made absolute. -/

set_option linter.unusedSectionVars false
set_option linter.unusedSimpArgs false

namespace GoSvg

variable {F : Type} [GoFloat F] [GoEnv]

open SM (get modify throw lift panic diverge forEach)
open Spec

theorem exec_cons (s : St F) (g : Bool × Seg F) (gs) : exec s (g :: gs) =
    ((step g.1 s g.2).1 :: (exec (step g.1 s g.2).2 gs).1, (exec (step g.1 s g.2).2 gs).2) := rfl

theorem exec_shift2 (f : Pnt F → Seg F) (h1 : ∀ s p, step true s (f p) = step false s (f (p.1 +. s.cur.1, p.2 +. s.cur.2)))
    (h2 : ∀ s p, (step false s (f p)).2.cur = p) (ps : List (Pnt F)) : ∀ s : St F,
    exec s (ps.map fun p => (true, f p)) = exec s ((shift2 s.cur ps).map fun p => (false, f p)) := by
  induction ps with
  | nil => intro s; rfl
  | cons p ps ih =>
    intro s
    simp only [shift2, List.map_cons, exec_cons, h1]
    rw [ih, h2]

theorem exec_shift4 (f : Pnt F → Pnt F → Seg F)
    (h1 : ∀ s p q, step true s (f p q) = step false s (f (p.1 +. s.cur.1, p.2 +. s.cur.2) (q.1 +. s.cur.1, q.2 +. s.cur.2)))
    (h2 : ∀ s p q, (step false s (f p q)).2.cur = q) (ps : List (Pnt F × Pnt F)) : ∀ s : St F,
    exec s (ps.map fun p => (true, f p.1 p.2)) = exec s ((shift4 s.cur ps).map fun p => (false, f p.1 p.2)) := by
  induction ps with
  | nil => intro s; rfl
  | cons p ps ih =>
    intro s
    obtain ⟨p, q⟩ := p
    simp only [shift4, List.map_cons, exec_cons, h1]
    rw [ih, h2]

theorem exec_shift6 (ps : List (Pnt F × Pnt F × Pnt F)) : ∀ s : St F,
    exec s (ps.map fun p => (true, .cubic p.1 p.2.1 p.2.2)) =
      exec s ((shift6 s.cur ps).map fun p => (false, .cubic p.1 p.2.1 p.2.2)) := by
  induction ps with
  | nil => intro s; rfl
  | cons p ps ih =>
    intro s
    obtain ⟨p, q, r⟩ := p
    simp only [shift6, List.map_cons, exec_cons]
    rw [ih]
    rfl

theorem exec_shift_horiz (xs : List F) : ∀ s : St F,
    exec s (xs.map fun x => (true, .horiz x)) = exec s ((shift1 s.cur.1 xs).map fun x => (false, .horiz x)) := by
  induction xs with
  | nil => intro s; rfl
  | cons x xs ih => intro s; simp only [shift1, List.map_cons, exec_cons]; rw [ih]; rfl

theorem exec_shift_vert (xs : List F) : ∀ s : St F,
    exec s (xs.map fun x => (true, .vert x)) = exec s ((shift1 s.cur.2 xs).map fun x => (false, .vert x)) := by
  induction xs with
  | nil => intro s; rfl
  | cons x xs ih => intro s; simp only [shift1, List.map_cons, exec_cons]; rw [ih]; rfl

/-- Two commands with the same drawing in the current state. -/
theorem doLetter_same {cmd1 cmd2 : Cmd F} (p1 : Plain cmd1) (p2 : Plain cmd2) (c : PathCursor F)
    (he : exec (stOf c) cmd1.segs = exec (stOf c) cmd2.segs) (ho : ∀ o, opens o cmd1 = opens o cmd2) :
    ∃ d e, doLetter cmd1.letter { c with points := cmd1.args } = (.ok (), d) ∧
      doLetter cmd2.letter { c with points := cmd2.args } = (.ok (), e) ∧ Eqv c.log c.log d e := by
  have hr := rel_stOf c
  obtain ⟨d, e1, e2, e3, e4⟩ := doLetter_cmd (p1 c.inPath) (rel_points hr cmd1.args) (s := stOf c) rfl
  obtain ⟨e, f1, f2, f3, f4⟩ := doLetter_cmd (p2 c.inPath) (rel_points hr cmd2.args) (s := stOf c) rfl
  refine ⟨d, e, e1, f1, ?_⟩
  rw [he, ho] at e4
  rw [he] at e3
  exact ⟨⟨_, _, e4, f4⟩, e3.trans f3.symm, e2.1.trans f2.1.symm, e2.2.trans f2.2.symm, e2.3.trans f2.3.symm, [],
    by rw [List.append_nil]; exact e2.4, by rw [List.append_nil]; exact f2.4⟩

theorem nk_z : 'z' ∉ quadKeys ∧ 'z' ∉ cubeKeys := by decide
theorem nk_Z : 'Z' ∉ quadKeys ∧ 'Z' ∉ cubeKeys := by decide
theorem nk_a : 'a' ∉ quadKeys ∧ 'a' ∉ cubeKeys := by decide
theorem nk_A : 'A' ∉ quadKeys ∧ 'A' ∉ cubeKeys := by decide

/-- A relative command and its absolute form at the current point. -/
theorem doLetter_absolute {k k' : Char} {a a' : List F} (c : PathCursor F) (h : Absolute (c.placeX, c.placeY) k a k' a') :
    ∃ d e, doLetter k { c with points := a } = (.ok (), d) ∧ doLetter k' { c with points := a' } = (.ok (), e) ∧
      Eqv c.log c.log d e := by
  generalize hc : (c.placeX, c.placeY) = cur at h
  have hcur : (stOf c).cur = cur := hc
  cases h with
  | move p ps =>
    refine doLetter_same (cmd1 := .move true p ps)
      (cmd2 := .move false (p.1 +. cur.1, p.2 +. cur.2) (shift2 (p.1 +. cur.1, p.2 +. cur.2) ps))
      (fun _ => refines_move _ _ _ _) (fun _ => refines_move _ _ _ _) c ?_ (fun _ => rfl)
    simp only [Cmd.segs, exec_cons]
    have := exec_shift2 (F := F) .line (fun _ _ => rfl) (fun _ _ => rfl) ps (step true (stOf c) (.move p)).2
    rw [this, ← hcur]
    rfl
  | line p ps =>
    refine doLetter_same (cmd1 := .line true p ps)
      (cmd2 := .line false (p.1 +. cur.1, p.2 +. cur.2) (shift2 (p.1 +. cur.1, p.2 +. cur.2) ps))
      (fun _ => refines_line _ _ _ _) (fun _ => refines_line _ _ _ _) c ?_ (fun _ => rfl)
    have := exec_shift2 (F := F) .line (fun _ _ => rfl) (fun _ _ => rfl) (p :: ps) (stOf c)
    rw [hcur] at this
    exact this
  | tquad p ps =>
    refine doLetter_same (cmd1 := .tquad true p ps)
      (cmd2 := .tquad false (p.1 +. cur.1, p.2 +. cur.2) (shift2 (p.1 +. cur.1, p.2 +. cur.2) ps))
      (fun _ => refines_tquad _ _ _ _) (fun _ => refines_tquad _ _ _ _) c ?_ (fun _ => rfl)
    have := exec_shift2 (F := F) .tquad (fun _ _ => rfl) (fun _ _ => rfl) (p :: ps) (stOf c)
    rw [hcur] at this
    exact this
  | horiz x xs =>
    refine doLetter_same (cmd1 := .horiz true x xs) (cmd2 := .horiz false (cur.1 +. x) (shift1 (cur.1 +. x) xs))
      (fun _ => refines_horiz _ _ _ _) (fun _ => refines_horiz _ _ _ _) c ?_ (fun _ => rfl)
    have := exec_shift_horiz (x :: xs) (stOf c)
    rw [hcur] at this
    exact this
  | vert x xs =>
    refine doLetter_same (cmd1 := .vert true x xs) (cmd2 := .vert false (cur.2 +. x) (shift1 (cur.2 +. x) xs))
      (fun _ => refines_vert _ _ _ _) (fun _ => refines_vert _ _ _ _) c ?_ (fun _ => rfl)
    have := exec_shift_vert (x :: xs) (stOf c)
    rw [hcur] at this
    exact this
  | quad p ps =>
    obtain ⟨p, q⟩ := p
    refine doLetter_same (cmd1 := .quad true (p, q) ps)
      (cmd2 := .quad false ((p.1 +. cur.1, p.2 +. cur.2), (q.1 +. cur.1, q.2 +. cur.2)) (shift4 (q.1 +. cur.1, q.2 +. cur.2) ps))
      (fun _ => refines_quad _ _ _ _) (fun _ => refines_quad _ _ _ _) c ?_ (fun _ => rfl)
    have := exec_shift4 (F := F) .quad (fun _ _ _ => rfl) (fun _ _ _ => rfl) ((p, q) :: ps) (stOf c)
    rw [hcur] at this
    exact this
  | smooth p ps =>
    obtain ⟨p, q⟩ := p
    refine doLetter_same (cmd1 := .smooth true (p, q) ps)
      (cmd2 := .smooth false ((p.1 +. cur.1, p.2 +. cur.2), (q.1 +. cur.1, q.2 +. cur.2)) (shift4 (q.1 +. cur.1, q.2 +. cur.2) ps))
      (fun _ => refines_smooth _ _ _ _) (fun _ => refines_smooth _ _ _ _) c ?_ (fun _ => rfl)
    have := exec_shift4 (F := F) .smooth (fun _ _ _ => rfl) (fun _ _ _ => rfl) ((p, q) :: ps) (stOf c)
    rw [hcur] at this
    exact this
  | cubic p ps =>
    obtain ⟨p, q, r⟩ := p
    refine doLetter_same (cmd1 := .cubic true (p, q, r) ps)
      (cmd2 := .cubic false ((p.1 +. cur.1, p.2 +. cur.2), (q.1 +. cur.1, q.2 +. cur.2), (r.1 +. cur.1, r.2 +. cur.2))
        (shift6 (r.1 +. cur.1, r.2 +. cur.2) ps))
      (fun _ => refines_cubic _ _ _ _) (fun _ => refines_cubic _ _ _ _) c ?_ (fun _ => rfl)
    have := exec_shift6 ((p, q, r) :: ps) (stOf c)
    rw [hcur] at this
    exact this
  | close =>
    have g : ∀ r : Bool, doLetter (if r then 'z' else 'Z') { c with points := [] } =
        (.ok (), { doClose { c with points := [] } with lastKey := if r then 'z' else 'Z' }) := by
      intro r
      unfold doLetter
      rw [SM.bind_run, seg_close]
      rfl
    refine ⟨_, _, g true, g false, ?_⟩
    cases hi : c.inPath with
    | true =>
      simp only [doClose, hi, if_true, PathCursor.addOps]
      exact ⟨⟨false, ⟨(c.pathStartX, c.pathStartY), (c.pathStartX, c.pathStartY), .none⟩,
        ⟨rfl, rfl, by simp, nk_z⟩, ⟨rfl, rfl, by simp, nk_Z⟩⟩, rfl, rfl, rfl, rfl, [], by simp, by simp⟩
    | false =>
      simp only [doClose, hi, if_false, Bool.false_eq_true]
      exact ⟨⟨false, ⟨(c.placeX, c.placeY), (c.pathStartX, c.pathStartY), .none⟩,
        ⟨rfl, rfl, by simp, nk_z⟩, ⟨rfl, rfl, by simp, nk_Z⟩⟩, rfl, rfl, rfl, rfl, [], by simp, by simp⟩
  | arc rx ry rot large sweep x y =>
    have hx : cur.1 = c.placeX := by rw [← hc]
    have hy : cur.2 = c.placeY := by rw [← hc]
    rw [hx, hy]
    have g : ∀ (r : Bool) (d : PathCursor F), d.points.length = 7 → doLetter (if r then 'a' else 'A') d =
        (.ok (), { arcLoop (if r then 'a' else 'A') 1 0 d with lastKey := if r then 'a' else 'A' }) := by
      intro r d hd
      unfold doLetter
      rw [SM.bind_run, seg_arc, if_pos (hasSets_flat (n := 0) (by rw [hd])), hd]
      rfl
    refine ⟨_, _, g true _ rfl, g false _ rfl, ?_⟩
    have e : arcLoop 'a' 1 0 { c with points := [rx, ry, rot, large, sweep, x, y] } =
        arcLoop 'A' 1 0 { c with points := [rx, ry, rot, large, sweep, x +. c.placeX, y +. c.placeY] } := rfl
    simp only [if_true, Bool.false_eq_true, if_false]
    rw [e]
    obtain ⟨ops, x', y', qs, e1, -⟩ := arcLoop_frame 'A' 1 0
      { c with points := [rx, ry, rot, large, sweep, x +. c.placeX, y +. c.placeY] } _ rfl rfl rfl rfl rfl
    rw [e1]
    exact ⟨⟨c.inPath, ⟨(x', y'), (c.pathStartX, c.pathStartY), .none⟩,
        ⟨rfl, rfl, fun _ => rfl, nk_a⟩, ⟨rfl, rfl, fun _ => rfl, nk_A⟩⟩, rfl, rfl, rfl, rfl, [], by simp, by simp⟩

/-! ### Replacing a piece of a path -/

/-- Two ways of writing a piece of a path that have the same effect where they stand. -/
theorem segs_replace (ts1 us vs ts2 : List Str) (c : PathCursor F)
    (h : ∀ c1, forEach addSeg ts1 c = (.ok (), c1) → ∃ d e, forEach addSeg us c1 = (.ok (), d) ∧
      forEach addSeg vs c1 = (.ok (), e) ∧ Eqv c1.log c1.log d e) :
    (forEach addSeg (ts1 ++ us ++ ts2) c).1 = (forEach addSeg (ts1 ++ vs ++ ts2) c).1 ∧
    (forEach addSeg (ts1 ++ us ++ ts2) c).2.path = (forEach addSeg (ts1 ++ vs ++ ts2) c).2.path ∧
    (forEach addSeg (ts1 ++ us ++ ts2) c).2.log = (forEach addSeg (ts1 ++ vs ++ ts2) c).2.log := by
  simp only [List.append_assoc, forEach_append, SM.bind_run]
  rcases h1 : (forEach addSeg ts1 : PM F Unit) c with ⟨r, c1⟩
  cases r with
  | ok u =>
    cases u
    obtain ⟨d, e, e1, e2, e3⟩ := h c1 h1
    simp only [e1, e2]
    obtain ⟨f1, f2⟩ := segs_eqv ts2 e3
    obtain ⟨x, hx1, hx2⟩ := f2.log
    exact ⟨f1, f2.path, hx1.trans hx2.symm⟩
  | err _ | panic _ | diverge => exact ⟨rfl, rfl, rfl⟩

theorem addSeg_writes {k : Char} {a : List F} {t : Str} (h : Writes k a t) (c : PathCursor F) :
    addSeg t c = doLetter k { c with points := a } := writes_points h c

theorem forEach_one {σ α : Type} (f : α → SM σ Unit) (x : α) : forEach f [x] = f x := sm_bind_pure _

end GoSvg
