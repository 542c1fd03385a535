import Verif.Lemmas.PathSim
import Verif.Lemmas.UseTable
import Verif.Props.Shapes
import Verif.Spec.Shift

/-! Drawing with an offset: what is drawn is fixed, and each point is shifted. -/

set_option linter.unusedSectionVars false

namespace GoSvg

open Spec

variable {F : Type} [GoFloat F] [GoEnv]

open SM (get modify throw lift panic diverge forEach)

/-! ### Paths -/

/-- Where a run of the path parser leads: the result, what it draws, and the state. -/
structure Fixed (r : Res Unit) (R : List (GOp F)) (o : Bool) (s : St F) (c : PathCursor F) (p : Res Unit × PathCursor F) : Prop where
  res : p.1 = r
  path : p.2.path = c.path ++ R.map (sto c)
  curX : p.2.curX = c.curX
  curY : p.2.curY = c.curY
  mode : p.2.errorMode = c.errorMode
  rel : p.1 = .ok () → Rel o p.2 s

theorem letter_fixed (k : Char) (hk : k ≠ 'a' ∧ k ≠ 'A') (ps : List F) (m : ErrorMode) (o : Bool) (s : St F) :
    ∃ r R o' s', ∀ c : PathCursor F, Rel o c s → c.points = ps → c.errorMode = m → Fixed r R o' s' c (doLetter k c) := by
  cases letter_cases ps k with
  | cmd cmd hpl ha =>
    refine ⟨.ok (), (exec s cmd.segs).1, opens o cmd, (exec s cmd.segs).2, fun c hr hp _ => ?_⟩
    obtain ⟨c', e1, e2, e3, e4⟩ := doLetter_cmd (hpl o) hr (hp.trans ha.symm)
    rw [e1]
    exact ⟨rfl, e3, e2.1, e2.2, e2.3, fun _ => e4⟩
  | close r ha =>
    subst ha
    have g : ∀ c : PathCursor F, c.points = [] → doLetter (if r then 'z' else 'Z') c =
        (.ok (), { doClose c with lastKey := if r then 'z' else 'Z' }) := by
      intro c hc
      unfold doLetter
      rw [SM.bind_run, seg_close, hc]
      rfl
    have hk := notKeys (F := F) (a := 'z') (b := 'Z') (by decide) r
    cases o with
    | true =>
      refine ⟨.ok (), [.close], false, ⟨s.start, s.start, .none⟩, fun c hr hp _ => ?_⟩
      have i1 := hr.inPath
      have s1 := hr.start rfl
      rw [g c hp]
      simp only [doClose, i1, if_true, PathCursor.addOps]
      exact ⟨rfl, rfl, rfl, rfl, rfl, fun _ => ⟨s1, rfl, by simp, hk _ _⟩⟩
    | false =>
      refine ⟨.ok (), [], false, ⟨s.cur, s.start, .none⟩, fun c hr hp _ => ?_⟩
      have i1 := hr.inPath
      rw [g c hp]
      simp only [doClose, i1, if_false, Bool.false_eq_true]
      exact ⟨rfl, by simp, rfl, rfl, rfl, fun _ => ⟨hr.cur, rfl, by simp, hk _ _⟩⟩
  | arc r n ha => cases r <;> simp at hk
  | reject k hk h =>
    refine ⟨.err .paramMismatch, [], o, s, fun c hr hp _ => ?_⟩
    have g : doLetter k c = (.err .paramMismatch, c) := by
      unfold doLetter
      rw [SM.bind_run, h c hp]
    rw [g]
    exact ⟨rfl, by simp, rfl, rfl, rfl, fun h => nomatch h⟩
  | unknown k hk =>
    have hn := keys_not hk
    by_cases m1 : m = ErrorMode.strict
    · refine ⟨.err .commandUnknown, [], o, s, fun c hr hp hm => ?_⟩
      unfold doLetter
      rw [SM.bind_run, seg_unknown _ hk, hm, if_pos m1]
      exact ⟨rfl, by simp, rfl, rfl, rfl, fun h => nomatch h⟩
    · refine ⟨.ok (), [], o, ⟨s.cur, s.start, .none⟩, fun c hr hp hm => ?_⟩
      unfold doLetter
      rw [SM.bind_run, seg_unknown _ hk, hm, if_neg m1]
      by_cases m2 : m = ErrorMode.warn
      · rw [if_pos m2]
        exact ⟨rfl, by simp [SM.modify_run], rfl, rfl, hm.symm, fun _ => ⟨hr.cur, hr.inPath, hr.start, hn⟩⟩
      · rw [if_neg m2]
        exact ⟨rfl, by simp [SM.modify_run], rfl, rfl, rfl, fun _ => ⟨hr.cur, hr.inPath, hr.start, hn⟩⟩

theorem seg_fixed (t : Str) (ht : t.head? ≠ some 'a' ∧ t.head? ≠ some 'A') (m : ErrorMode) (o : Bool) (s : St F) :
    ∃ r R o' s', ∀ c : PathCursor F, Rel o c s → c.errorMode = m → Fixed r R o' s' c (addSeg t c) := by
  cases t with
  | nil => exact ⟨.ok (), [], o, s, fun c hr _ => ⟨rfl, by simp [addSeg, SM.pure_run], rfl, rfl, rfl, fun _ => hr⟩⟩
  | cons k t =>
    obtain ⟨b, ps, hg⟩ := getPoints_frame (F := F) t
    cases b with
    | false =>
      refine ⟨.err .badFloat, [], o, s, fun c hr _ => ?_⟩
      rw [addSeg_cons, SM.bind_run, hg]
      exact ⟨rfl, by simp, rfl, rfl, rfl, fun h => nomatch h⟩
    | true =>
      obtain ⟨r, R, o', s', h⟩ := letter_fixed (F := F) k ⟨fun h => ht.1 (by rw [h]; rfl), fun h => ht.2 (by rw [h]; rfl)⟩ ps m o s
      refine ⟨r, R, o', s', fun c hr hm => ?_⟩
      rw [addSeg_cons, SM.bind_run, hg]
      have := h { c with points := ps } (rel_points hr ps) rfl hm
      exact ⟨this.res, this.path, this.curX, this.curY, this.mode, this.rel⟩

theorem segs_fixed (m : ErrorMode) : ∀ (ts : List Str), (∀ t ∈ ts, t.head? ≠ some 'a' ∧ t.head? ≠ some 'A') → ∀ (o : Bool) (s : St F),
    ∃ r R o' s', ∀ c : PathCursor F, Rel o c s → c.errorMode = m → Fixed r R o' s' c (forEach addSeg ts c) := by
  intro ts
  induction ts with
  | nil => intro _ o s; exact ⟨.ok (), [], o, s, fun c hr _ => ⟨rfl, by simp [forEach, SM.pure_run], rfl, rfl, rfl, fun _ => hr⟩⟩
  | cons t ts ih =>
    intro ht o s
    obtain ⟨r, R, o', s', h⟩ := seg_fixed (F := F) t (ht t List.mem_cons_self) m o s
    have hrun : ∀ c : PathCursor F, forEach addSeg (t :: ts) c = (addSeg t >>= fun _ => forEach addSeg ts) c := fun _ => rfl
    cases r with
    | ok u =>
      obtain ⟨r2, R2, o2, s2, h2⟩ := ih (fun t' h' => ht t' (List.mem_cons_of_mem _ h')) o' s'
      refine ⟨r2, R ++ R2, o2, s2, fun c hr hm => ?_⟩
      have g := h c hr hm
      rw [hrun, SM.bind_run]
      generalize addSeg t c = p at g ⊢
      obtain ⟨q, d⟩ := p
      obtain rfl : q = .ok u := g.res
      have k := h2 d (g.rel rfl) (g.mode.trans hm)
      refine ⟨k.res, ?_, k.curX.trans g.curX, k.curY.trans g.curY, k.mode.trans g.mode, k.rel⟩
      show (forEach addSeg ts d).2.path = _
      rw [k.path, g.path, sto_eq g.curX g.curY, List.map_append, List.append_assoc]
    | err e =>
      refine ⟨.err e, R, o', s', fun c hr hm => ?_⟩
      have g := h c hr hm
      rw [hrun, SM.bind_run]
      generalize addSeg t c = p at g ⊢
      obtain ⟨q, d⟩ := p
      obtain rfl : q = .err e := g.res
      exact g
    | panic e =>
      refine ⟨.panic e, R, o', s', fun c hr hm => ?_⟩
      have g := h c hr hm
      rw [hrun, SM.bind_run]
      generalize addSeg t c = p at g ⊢
      obtain ⟨q, d⟩ := p
      obtain rfl : q = .panic e := g.res
      exact g
    | diverge =>
      refine ⟨.diverge, R, o', s', fun c hr hm => ?_⟩
      have g := h c hr hm
      rw [hrun, SM.bind_run]
      generalize addSeg t c = p at g ⊢
      obtain ⟨q, d⟩ := p
      obtain rfl : q = .diverge := g.res
      exact g

theorem segsGo_mem : ∀ (d : Str) (cur : Option Str) (t : Str), t ∈ segsGo cur d → ∀ ch ∈ t, ch ∈ d ∨ ∃ s, cur = some s ∧ ch ∈ s := by
  intro d
  induction d with
  | nil =>
    intro cur t ht ch hc
    rw [segsGo, Option.mem_toList] at ht
    exact .inr ⟨t, ht, hc⟩
  | cons v vs ih =>
    intro cur t ht ch hc
    rw [segsGo] at ht
    split at ht
    · rcases List.mem_append.1 ht with ht | ht
      · rw [Option.mem_toList] at ht
        exact .inr ⟨t, ht, hc⟩
      · rcases ih _ _ ht ch hc with h | ⟨s, h1, h2⟩
        · exact .inl (List.mem_cons_of_mem _ h)
        · cases h1
          exact .inl (by rw [List.mem_singleton] at h2; rw [h2]; exact List.mem_cons_self)
    · rcases ih _ _ ht ch hc with h | ⟨s, h1, h2⟩
      · exact .inl (List.mem_cons_of_mem _ h)
      · cases cur with
        | none => cases h1
        | some s0 =>
          cases h1
          rcases List.mem_append.1 h2 with h | h
          · exact .inr ⟨s0, rfl, h⟩
          · exact .inl (by rw [List.mem_singleton] at h; rw [h]; exact List.mem_cons_self)

/-- Path data without arcs: one drawing, whatever the offset and the state. -/
theorem compile_fixed (d : Str) (hd : 'a' ∉ d ∧ 'A' ∉ d) (m : ErrorMode) : ∃ (r : Res Unit) (R : List (GOp F)), ∀ c : PathCursor F, c.errorMode = m →
    (compilePath d c).1 = r ∧ (compilePath d c).2.path = R.map (sto c) := by
  obtain ⟨r, R, o, s, h⟩ := segs_fixed (F := F) m (segsGo none d) (by
    intro t ht
    have key : ∀ k, t.head? = some k → k ∈ d := by
      intro k hk
      cases t with
      | nil => cases hk
      | cons a t =>
        obtain rfl : a = k := Option.some.inj hk
        rcases segsGo_mem d none _ ht a List.mem_cons_self with h | ⟨s, h, -⟩
        · exact h
        · cases h
    exact ⟨fun h => hd.1 (key _ h), fun h => hd.2 (key _ h)⟩) false ⟨(num 0, num 0), (num 0, num 0), .none⟩
  refine ⟨r, R, fun c hm => ?_⟩
  have g := h c.init (rel_init c) hm
  rw [compilePath_segs]
  exact ⟨g.res, g.path⟩

/-! ### Elements -/

/-- What an element draws: the drawing `R`, shifted by the offset; `clears`: what was drawn before is lost. -/
def Draws (vb : Bounds F) (m : ErrorMode) (clears : Bool) (R : List (GOp F)) (df : CM F Unit) : Prop :=
  ∀ c c' u, c.svg.viewBox = vb → c.pc.errorMode = m → df c = (.ok u, c') →
    c'.pc.path = (if clears then [] else c.pc.path) ++ R.map (sto c.pc)

theorem named_cons (n : String) (a : Attr) (as : List Attr) :
    valuesNamed n (a :: as) = if a.name = n.toList then a.value :: valuesNamed n as else valuesNamed n as := by
  unfold valuesNamed
  by_cases h : a.name = n.toList
  · rw [if_pos h, List.filter_cons_of_pos (by simpa using h), List.map_cons]
  · rw [if_neg h, List.filter_cons_of_neg (by simpa using h)]

theorem path_draws (vb : Bounds F) (m : ErrorMode) : ∀ (attrs : List Attr), (∀ v ∈ valuesNamed "d" attrs, 'a' ∉ v ∧ 'A' ∉ v) →
    ∃ R, Draws vb m (valuesNamed "d" attrs ≠ []) R (pathF attrs : CM F Unit) := by
  intro attrs
  induction attrs with
  | nil =>
    intro _
    refine ⟨[], fun c c' u _ _ h => ?_⟩
    cases h
    simp [valuesNamed]
  | cons a as ih =>
    intro hv
    rw [named_cons] at hv ⊢
    have hrun : ∀ c : Cursor F, pathF (a :: as) c = (pathAttr () a >>= fun _ => pathF as) c := fun _ => rfl
    by_cases hn : a.name = "d".toList
    · rw [if_pos hn] at hv ⊢
      obtain ⟨R, hR⟩ := ih fun v h => hv v (List.mem_cons_of_mem _ h)
      obtain ⟨r0, R0, h0⟩ := compile_fixed (F := F) a.value (hv _ List.mem_cons_self) m
      have hkeep := pathF_keeps (F := F) [a]
      refine ⟨if valuesNamed "d" as ≠ [] then R else R0 ++ R, fun c c' u hvb hm h => ?_⟩
      rw [hrun, SM.bind_run] at h
      have e : pathAttr () a = (onPath (compilePath a.value) : CM F Unit) := if_pos hn
      have hp1 : ∀ c : Cursor F, (pathAttr () a c).2 = (pathF [a] c).2 := by
        intro c
        show _ = ((pathAttr () a >>= fun _ => pure ()) c).2
        rw [SM.bind_run]
        rcases pathAttr () a c with ⟨r, d⟩
        cases r <;> rfl
      have hk := hkeep c
      rw [← hp1] at hk
      have hpath : (pathAttr () a c).2.pc.path = R0.map (sto c.pc) := by
        rw [e]
        exact (h0 c.pc hm).2
      rcases hq : pathAttr () a c with ⟨r, d⟩
      rw [hq] at h hk hpath
      cases r with
      | ok v =>
        dsimp only at h hk hpath
        have e' := hk.eq
        have g := hR d c' u (by rw [e']; exact hvb) (hk.mode.trans hm) h
        rw [g]
        simp only [ne_eq, reduceCtorEq, not_false_eq_true, decide_true, if_true, List.nil_append]
        by_cases hl : valuesNamed "d" as = []
        · rw [if_neg (by simp [hl]), if_neg (by simp [hl]), hpath, sto_eq hk.curX hk.curY, List.map_append]
        · rw [if_pos (by simpa using hl), if_pos (by simpa using hl), sto_eq hk.curX hk.curY]; rfl
      | err e => cases h
      | panic e => cases h
      | diverge => cases h
    · rw [if_neg hn] at hv ⊢
      obtain ⟨R, hR⟩ := ih hv
      refine ⟨R, fun c c' u hvb hm h => ?_⟩
      rw [hrun, SM.bind_run] at h
      have e : pathAttr () a = (pure () : CM F Unit) := if_neg hn
      rw [e] at h
      exact hR c c' u hvb hm h

/-- The points of a polyline do not depend on the state. -/
theorem poly_loop : ∀ (attrs : List Attr), ∃ (r : Res Unit) (ps : Option (List F)), (valuesNamed "points" attrs ≠ [] → ps.isSome) ∧
    ∀ c : Cursor F, attrLoop polyAttr () attrs c = (r, { c with pc := { c.pc with points := ps.getD c.pc.points } }) := by
  intro attrs
  induction attrs with
  | nil => exact ⟨.ok (), none, fun h => absurd rfl h, fun c => rfl⟩
  | cons a as ih =>
    obtain ⟨r, ps, h1, h2⟩ := ih
    have hrun : ∀ c : Cursor F, attrLoop polyAttr () (a :: as) c = (polyAttr () a >>= fun _ => attrLoop polyAttr () as) c := fun _ => rfl
    by_cases hn : a.name = "points".toList
    · obtain ⟨b, qs, hg⟩ := getPoints_frame (F := F) a.value
      have ha : a = ⟨"points".toList, a.value⟩ := by rw [← hn]
      by_cases ho : qs.length % 2 ≠ 0
      · refine ⟨.err .oddPoints, some qs, fun _ => rfl, fun c => ?_⟩
        rw [hrun, SM.bind_run, ha, polyAttr_points hg, if_pos ho]; rfl
      · cases b with
        | false =>
          refine ⟨.err .badFloat, some qs, fun _ => rfl, fun c => ?_⟩
          rw [hrun, SM.bind_run, ha, polyAttr_points hg, if_neg ho]; rfl
        | true =>
          refine ⟨r, some (ps.getD qs), fun _ => rfl, fun c => ?_⟩
          rw [hrun, SM.bind_run, ha, polyAttr_points hg, if_neg ho]
          dsimp only [if_true]
          rw [if_pos rfl]
          dsimp only
          rw [h2]; rfl
    · refine ⟨r, ps, ?_, fun c => ?_⟩
      · rw [named_cons, if_neg hn]; exact h1
      · rw [hrun, SM.bind_run, polyAttr_other hn]
        exact h2 c

theorem lineOps_fixed : ∀ (n : Nat) (ps : List F), ps.length ≤ n → ∃ R : List (GOp F), ∀ c : PathCursor F, lineOps c ps = R.map (sto c) := by
  intro n
  induction n with
  | zero => intro ps h; rw [List.length_eq_zero_iff.1 (Nat.le_zero.1 h)]; exact ⟨[], fun _ => rfl⟩
  | succ n ih =>
    intro ps h
    match ps with
    | [] => exact ⟨[], fun _ => rfl⟩
    | [x] => exact ⟨[], fun _ => rfl⟩
    | x :: y :: ps =>
      obtain ⟨R, hR⟩ := ih ps (by simp at h; omega)
      exact ⟨.lineTo (x, y) :: R, fun c => by rw [lineOps, hR]; rfl⟩

theorem polyDraw_fixed (ps : List F) : ∃ R : List (GOp F), ∀ c : PathCursor F, c.points = ps → polyDraw c = { c with path := c.path ++ R.map (sto c) } := by
  by_cases h : ps.length > 4
  · obtain ⟨R, hR⟩ := lineOps_fixed (F := F) _ (ps.drop 2) le_rfl
    refine ⟨.moveTo (at_ ps 0, at_ ps 1) :: R, fun c hc => ?_⟩
    subst hc
    unfold polyDraw
    rw [if_pos h, hR]; rfl
  · refine ⟨[], fun c hc => ?_⟩
    subst hc
    unfold polyDraw
    rw [if_neg h]; simp

theorem polyline_draws (vb : Bounds F) (m : ErrorMode) {attrs : List Attr} (hp : valuesNamed "points" attrs ≠ []) :
    ∃ R, Draws vb m false R (polylineF attrs : CM F Unit) := by
  obtain ⟨r, ps, h1, h2⟩ := poly_loop (F := F) attrs
  obtain ⟨qs, hq⟩ := Option.isSome_iff_exists.1 (h1 hp)
  subst hq
  obtain ⟨R, hR⟩ := polyDraw_fixed (F := F) qs
  refine ⟨R, fun c c' u _ _ h => ?_⟩
  unfold polylineF at h
  rw [SM.bind_run, h2] at h
  cases r with
  | ok v =>
    dsimp only at h
    rw [SM.modify_run] at h
    obtain ⟨-, rfl⟩ := Prod.mk.inj h
    dsimp only
    rw [hR _ rfl]; rfl
  | err e => cases h
  | panic e => cases h
  | diverge => cases h

theorem polygon_draws (vb : Bounds F) (m : ErrorMode) {attrs : List Attr} (hp : valuesNamed "points" attrs ≠ []) :
    ∃ R, Draws vb m false R (polygonF attrs : CM F Unit) := by
  obtain ⟨r, ps, h1, h2⟩ := poly_loop (F := F) attrs
  obtain ⟨qs, hq⟩ := Option.isSome_iff_exists.1 (h1 hp)
  subst hq
  obtain ⟨R, hR⟩ := polyDraw_fixed (F := F) qs
  have hl : ∀ c : Cursor F, polylineF attrs c = (match r with
      | .ok _ => (.ok (), { c with pc := polyDraw { c.pc with points := qs } })
      | .err e => (.err e, { c with pc := { c.pc with points := qs } })
      | .panic e => (.panic e, { c with pc := { c.pc with points := qs } })
      | .diverge => (.diverge, { c with pc := { c.pc with points := qs } })) := by
    intro c
    unfold polylineF
    rw [SM.bind_run, h2]
    cases r <;> rfl
  refine ⟨R ++ (if qs.length > 4 then [.close] else []), fun c c' u _ _ h => ?_⟩
  unfold polygonF at h
  rw [hl] at h
  cases r with
  | ok v =>
    dsimp only at h
    obtain ⟨-, rfl⟩ := Prod.mk.inj h
    rw [hR _ rfl]
    dsimp only
    by_cases hl : qs.length > 4
    · rw [if_pos hl, if_pos hl]; simp [PathCursor.addOps, sto, GOp.store]
    · rw [if_neg hl, if_neg hl]; simp
  | err e => cases (Prod.mk.inj h).1
  | panic e => cases (Prod.mk.inj h).1
  | diverge => cases (Prod.mk.inj h).1

theorem line_draws (vb : Bounds F) (m : ErrorMode) (attrs : List Attr) : ∃ R, Draws vb m false R (lineF attrs : CM F Unit) := by
  cases hv : Res.loop (lineAttr vb) ⟨num 0, num 0, num 0, num 0⟩ attrs with
  | ok v =>
    refine ⟨[.moveTo (v.x1, v.y1), .lineTo (v.x2, v.y2)], fun c c' u hvb _ h => ?_⟩
    unfold lineF at h
    simp only [SM.bind_run, SM.get_run, SM.lift_run, hvb, hv] at h
    rw [SM.modify_run] at h
    obtain ⟨-, rfl⟩ := Prod.mk.inj h
    rfl
  | err e =>
    refine ⟨[], fun c c' u hvb _ h => ?_⟩
    unfold lineF at h
    simp only [SM.bind_run, SM.get_run, SM.lift_run, hvb, hv] at h
    cases (Prod.mk.inj h).1
  | panic e =>
    refine ⟨[], fun c c' u hvb _ h => ?_⟩
    unfold lineF at h
    simp only [SM.bind_run, SM.get_run, SM.lift_run, hvb, hv] at h
    cases (Prod.mk.inj h).1
  | diverge =>
    refine ⟨[], fun c c' u hvb _ h => ?_⟩
    unfold lineF at h
    simp only [SM.bind_run, SM.get_run, SM.lift_run, hvb, hv] at h
    cases (Prod.mk.inj h).1

/-! ### Ellipses and rectangles, in exact arithmetic -/

/-- The loop of `addArc` before the points are rounded. -/
noncomputable def ellShape (p : ArcArgs ℝ) (cx cy sinTheta cosTheta etaStart dEta alpha : ℝ) :
    Nat → Nat → ℝ → ℝ → ℝ → ℝ → List (GOp ℝ)
  | 0, _, _, _, _, _ => []
  | n + 1, i, lx, ly, ldx, ldy =>
    let eta := etaStart + dEta * i
    let q : ℝ × ℝ := if n = 0 then (p.x, p.y) else ellipsePointAt p.rx p.ry sinTheta cosTheta eta cx cy
    let d := ellipsePrime p.rx p.ry sinTheta cosTheta eta cx cy
    .cubicTo (lx + alpha * ldx, ly + alpha * ldy) (q.1 - alpha * d.1, q.2 - alpha * d.2) q ::
      ellShape p cx cy sinTheta cosTheta etaStart dEta alpha n (i + 1) q.1 q.2 d.1 d.2

theorem ellipsePrime_const (a b s c eta cx cy cx' cy' : ℝ) : ellipsePrime a b s c eta cx cy = ellipsePrime a b s c eta cx' cy' := rfl

theorem ellLoop_shift (rx ry rot large sweep x y ox oy : ℝ) (cx cy sT cT e0 dE al : ℝ) : ∀ (n i : Nat) (lx ly ldx ldy : ℝ),
    (ellLoop ⟨rx, ry, rot, large, sweep, x + ox, y + oy⟩ (cx + ox) (cy + oy) sT cT e0 dE al n i (lx + ox) (ly + oy) ldx ldy).1 =
      (ellShape ⟨rx, ry, rot, large, sweep, x, y⟩ cx cy sT cT e0 dE al n i lx ly ldx ldy).map (GOp.store toFix ox oy) := by
  intro n
  induction n with
  | zero => intros; rfl
  | succ n ih =>
    intro i lx ly ldx ldy
    rw [ellLoop, ellShape]
    simp only [real_add, real_sub, real_mul, real_ofInt, Int.cast_natCast, List.map_cons]
    have hq : (if n = 0 then (x + ox, y + oy) else ellipsePointAt rx ry sT cT (e0 + dE * i) (cx + ox) (cy + oy)) =
        ((if n = 0 then (x, y) else ellipsePointAt rx ry sT cT (e0 + dE * i) cx cy).1 + ox,
          (if n = 0 then (x, y) else ellipsePointAt rx ry sT cT (e0 + dE * i) cx cy).2 + oy) := by
      split
      · rfl
      · simp only [ellipsePointAt, real_add, real_sub, real_mul]
        refine Prod.ext ?_ ?_ <;> simp <;> ring
    rw [hq]
    generalize (if n = 0 then (x, y) else ellipsePointAt rx ry sT cT (e0 + dE * i) cx cy) = q
    rw [ellipsePrime_const rx ry sT cT (e0 + dE * i) (cx + ox) (cy + oy) cx cy]
    have := ih (i + 1) q.1 q.2 (ellipsePrime rx ry sT cT (e0 + dE * i) cx cy).1 (ellipsePrime rx ry sT cT (e0 + dE * i) cx cy).2
    dsimp only
    rw [this]
    refine congrArg₂ List.cons ?_ rfl
    simp only [GOp.store, toFixedP, real_add]
    refine congr (congr (congrArg Op.cubicTo ?_) ?_) rfl
    · refine congrArg₂ Pt.mk (congrArg toFix ?_) (congrArg toFix ?_) <;> ring
    · refine congrArg₂ Pt.mk (congrArg toFix ?_) (congrArg toFix ?_) <;> ring

theorem addArc_shift (rx ry rot large sweep x y cx cy px py : ℝ) : ∃ R : List (GOp ℝ), ∀ ox oy,
    (addArc ⟨rx, ry, rot, large, sweep, x + ox, y + oy⟩ (cx + ox) (cy + oy) (px + ox) (py + oy)).1 = R.map (GOp.store toFix ox oy) := by
  have hd : ∀ ox oy, arcDeltaEta ⟨rx, ry, rot, large, sweep, x + ox, y + oy⟩ (cx + ox) (cy + oy) (px + ox) (py + oy) =
      arcDeltaEta ⟨rx, ry, rot, large, sweep, x, y⟩ cx cy px py := by
    intro ox oy
    unfold arcDeltaEta
    simp only [real_sub, add_sub_add_right_eq_sub]
  have hp : ∀ a b s c eta ox oy : ℝ, ellipsePrime a b s c eta (cx + ox) (cy + oy) = ellipsePrime a b s c eta cx cy :=
    fun _ _ _ _ _ _ _ => rfl
  unfold addArc
  simp only [hd, hp]
  exact ⟨_, fun ox oy => ellLoop_shift rx ry rot large sweep x y ox oy cx cy _ _ _ _ _ _ _ px py _ _⟩

theorem circle_draws (vb : Bounds ℝ) (m : ErrorMode) (attrs : List Attr) : ∃ R, Draws vb m false R (circleF attrs : CM ℝ Unit) := by
  cases hv : Res.loop (circleAttr vb) ⟨num 0, num 0, num 0, num 0⟩ attrs with
  | ok v =>
    by_cases h0 : (GoFloat.eq v.rx (num 0) || GoFloat.eq v.ry (num 0)) = true
    · refine ⟨[], fun c c' u hvb _ h => ?_⟩
      unfold circleF at h
      simp only [SM.bind_run, SM.get_run, SM.lift_run, hvb, hv] at h
      rw [if_pos h0] at h
      obtain ⟨-, rfl⟩ := Prod.mk.inj h
      simp
    · obtain ⟨R, hR⟩ := addArc_shift v.rx v.ry 0 1 0 (v.cx + v.rx) v.cy v.cx v.cy (v.cx + v.rx) v.cy
      refine ⟨.moveTo (v.cx + v.rx, v.cy) :: R ++ [.close], fun c c' u hvb _ h => ?_⟩
      unfold circleF at h
      simp only [SM.bind_run, SM.get_run, SM.lift_run, hvb, hv] at h
      rw [if_neg h0, SM.modify_run] at h
      obtain ⟨-, rfl⟩ := Prod.mk.inj h
      have e := hR c.pc.curX c.pc.curY
      unfold ellipseAt
      simp only [real_add, real_num, Rat.cast_zero, Rat.cast_one]
      rw [show v.cx + c.pc.curX + v.rx = v.cx + v.rx + c.pc.curX by ring, e]
      simp only [Bool.false_eq_true, if_false, List.map_append, List.map_cons, List.map_nil, List.append_assoc, List.cons_append]
      rfl
  | err e =>
    refine ⟨[], fun c c' u hvb _ h => ?_⟩
    unfold circleF at h
    simp only [SM.bind_run, SM.get_run, SM.lift_run, hvb, hv] at h
    cases (Prod.mk.inj h).1
  | panic e =>
    refine ⟨[], fun c c' u hvb _ h => ?_⟩
    unfold circleF at h
    simp only [SM.bind_run, SM.get_run, SM.lift_run, hvb, hv] at h
    cases (Prod.mk.inj h).1
  | diverge =>
    refine ⟨[], fun c c' u hvb _ h => ?_⟩
    unfold circleF at h
    simp only [SM.bind_run, SM.get_run, SM.lift_run, hvb, hv] at h
    cases (Prod.mk.inj h).1

theorem rectLoop_radii {vb : Bounds F} : ∀ (attrs : List Attr), valuesNamed "rx" attrs = [] → valuesNamed "ry" attrs = [] →
    ∀ {v v' : RectVars F}, Res.loop (rectAttr vb) v attrs = .ok v' → v'.rx = v.rx ∧ v'.ry = v.ry := by
  intro attrs
  induction attrs with
  | nil => intro _ _ v v' h; cases h; exact ⟨rfl, rfl⟩
  | cons a as ih =>
    intro h1 h2 v v' h
    rw [named_cons] at h1 h2
    have n1 : a.name ≠ "rx".toList := fun hn => by rw [if_pos hn] at h1; cases h1
    have n2 : a.name ≠ "ry".toList := fun hn => by rw [if_pos hn] at h2; cases h2
    rw [if_neg n1] at h1
    rw [if_neg n2] at h2
    have hstep : Res.loop (rectAttr vb) v (a :: as) = (rectAttr vb v a >>= fun w => Res.loop (rectAttr vb) w as) := rfl
    rw [hstep] at h
    cases hw : rectAttr vb v a with
    | ok w =>
      rw [hw] at h
      obtain ⟨e1, e2⟩ := ih h1 h2 h
      have : w.rx = v.rx ∧ w.ry = v.ry := by
        unfold rectAttr at hw
        rw [if_neg n1, if_neg n2] at hw
        split_ifs at hw
        · obtain ⟨x, hx, hb⟩ := res_inv hw; subst hb; exact ⟨rfl, rfl⟩
        · obtain ⟨x, hx, hb⟩ := res_inv hw; subst hb; exact ⟨rfl, rfl⟩
        · obtain ⟨x, hx, hb⟩ := res_inv hw; subst hb; exact ⟨rfl, rfl⟩
        · obtain ⟨x, hx, hb⟩ := res_inv hw; subst hb; exact ⟨rfl, rfl⟩
        · cases hw; exact ⟨rfl, rfl⟩
      exact ⟨e1.trans this.1, e2.trans this.2⟩
    | err e => rw [hw] at h; cases h
    | panic e => rw [hw] at h; cases h
    | diverge => rw [hw] at h; cases h

theorem rect_draws (vb : Bounds ℝ) (m : ErrorMode) {attrs : List Attr} (h1 : valuesNamed "rx" attrs = [])
    (h2 : valuesNamed "ry" attrs = []) : ∃ R, ∀ fuel, Draws vb m false R (rectF fuel attrs : CM ℝ Unit) := by
  cases hv : Res.loop (rectAttr vb) ⟨num 0, num 0, num 0, num 0, num 0, num 0⟩ attrs with
  | ok v =>
    obtain ⟨r1, r2⟩ := rectLoop_radii attrs h1 h2 hv
    obtain ⟨R, hR⟩ : ∃ R : List (GOp ℝ), ∀ fuel ox oy, rectOps fuel ox oy v = some (R.map (GOp.store toFix ox oy)) := by
      by_cases h0 : (GoFloat.eq v.w (num 0) || GoFloat.eq v.h (num 0)) = true
      · exact ⟨[], fun fuel ox oy => by unfold rectOps; rw [if_pos h0]; rfl⟩
      · refine ⟨[.moveTo (v.x, v.y), .lineTo (v.w + v.x, v.y), .lineTo (v.w + v.x, v.h + v.y), .lineTo (v.x, v.h + v.y), .close], fun fuel ox oy => ?_⟩
        unfold rectOps
        rw [if_neg h0]
        dsimp only at r1 r2 ⊢
        simp only [r1, r2, real_num, Rat.cast_zero, real_add]
        have e : addRoundRect fuel (v.x + ox) (v.y + oy) (v.w + v.x + ox) (v.h + v.y + oy) (0 : ℝ) 0 0 =
            some (addRect (v.x + ox) (v.y + oy) (v.w + v.x + ox) (v.h + v.y + oy) 0) := by
          unfold addRoundRect
          rw [if_pos (by simp [(real_le _ _).2])]
        simp only [ite_self]
        rw [e, addRect_real]
        rfl
    refine ⟨R, fun fuel c c' u hvb _ h => ?_⟩
    unfold rectF at h
    simp only [SM.bind_run, SM.get_run, SM.lift_run, hvb, hv, hR] at h
    rw [SM.modify_run] at h
    obtain ⟨-, rfl⟩ := Prod.mk.inj h
    rfl
  | err e =>
    refine ⟨[], fun fuel c c' u hvb _ h => ?_⟩
    unfold rectF at h
    simp only [SM.bind_run, SM.get_run, SM.lift_run, hvb, hv] at h
    cases (Prod.mk.inj h).1
  | panic e =>
    refine ⟨[], fun fuel c c' u hvb _ h => ?_⟩
    unfold rectF at h
    simp only [SM.bind_run, SM.get_run, SM.lift_run, hvb, hv] at h
    cases (Prod.mk.inj h).1
  | diverge =>
    refine ⟨[], fun fuel c c' u hvb _ h => ?_⟩
    unfold rectF at h
    simp only [SM.bind_run, SM.get_run, SM.lift_run, hvb, hv] at h
    cases (Prod.mk.inj h).1

/-- What an element of a definition draws, and that it changes nothing else. -/
def Drawn (vb : Bounds F) (m : ErrorMode) (d : Definition) (R : List (GOp F)) : Prop :=
  (d.tag = "g".toList → R = []) ∧ ∀ fuel, ∃ df, drawFuncs fuel (useF (F := F) fuel) d.tag = some df ∧
    Draws vb m (d.tag = "path".toList ∧ valuesNamed "d" d.attrs ≠ []) R (df d.attrs) ∧ Keeps DrawR (df d.attrs)

theorem drawR_refl (c : Cursor F) : DrawR c c := drawR_pre.refl c

theorem group_drawn (vb : Bounds F) (m : ErrorMode) {d : Definition} (h : d.tag = "g".toList) : Drawn vb m d [] := by
  refine ⟨fun _ => rfl, fun fuel => ⟨gF, by rw [h]; rfl, ?_, fun c => drawR_refl c⟩⟩
  intro c c' u _ _ he
  cases he
  simp [h]

theorem line_drawn (vb : Bounds F) (m : ErrorMode) {d : Definition} (h : d.tag = "line".toList) : ∃ R, Drawn vb m d R := by
  obtain ⟨R, hR⟩ := line_draws vb m d.attrs
  refine ⟨R, by rw [h]; simp, fun fuel => ⟨lineF, by rw [h]; rfl, ?_, lineF_keeps _⟩⟩
  simpa [h] using hR

theorem polyline_drawn (vb : Bounds F) (m : ErrorMode) {d : Definition} (h : d.tag = "polyline".toList)
    (hp : valuesNamed "points" d.attrs ≠ []) : ∃ R, Drawn vb m d R := by
  obtain ⟨R, hR⟩ := polyline_draws vb m hp
  refine ⟨R, by rw [h]; simp, fun fuel => ⟨polylineF, by rw [h]; rfl, ?_, polylineF_keeps _⟩⟩
  simpa [h] using hR

theorem polygon_drawn (vb : Bounds F) (m : ErrorMode) {d : Definition} (h : d.tag = "polygon".toList)
    (hp : valuesNamed "points" d.attrs ≠ []) : ∃ R, Drawn vb m d R := by
  obtain ⟨R, hR⟩ := polygon_draws vb m hp
  refine ⟨R, by rw [h]; simp, fun fuel => ⟨polygonF, by rw [h]; rfl, ?_, polygonF_keeps _⟩⟩
  simpa [h] using hR

theorem path_drawn (vb : Bounds F) (m : ErrorMode) {d : Definition} (h : d.tag = "path".toList)
    (hp : ∀ v ∈ valuesNamed "d" d.attrs, 'a' ∉ v ∧ 'A' ∉ v) : ∃ R, Drawn vb m d R := by
  obtain ⟨R, hR⟩ := path_draws vb m d.attrs hp
  refine ⟨R, by rw [h]; simp, fun fuel => ⟨pathF, by rw [h]; rfl, ?_, pathF_keeps _⟩⟩
  simpa [h] using hR

/-- The elements drawn alike in any arithmetic. -/
theorem plain_drawn (vb : Bounds F) (m : ErrorMode) {d : Definition} (hd : ShiftablePlain d) (he : d.tag ≠ "endg".toList) :
    ∃ R, Drawn vb m d R := by
  rcases hd with h | ⟨h, hp⟩ | ⟨h, hp⟩
  · simp only [List.mem_cons, List.not_mem_nil, or_false] at h
    rcases h with h | h | h
    · exact ⟨[], group_drawn vb m h⟩
    · exact absurd h he
    · exact line_drawn vb m h
  · rcases h with h | h
    · exact polyline_drawn vb m h hp
    · exact polygon_drawn vb m h hp
  · exact path_drawn vb m h hp

/-- In exact arithmetic. -/
theorem shiftable_drawn (vb : Bounds ℝ) (m : ErrorMode) {d : Definition} (hd : Shiftable d) (he : d.tag ≠ "endg".toList) :
    ∃ R, Drawn vb m d R := by
  rcases hd with h | h | ⟨h, h1, h2⟩
  · exact plain_drawn vb m h he
  · obtain ⟨R, hR⟩ := circle_draws vb m d.attrs
    rcases h with h | h
    · refine ⟨R, by rw [h]; simp, fun fuel => ⟨circleF, by rw [h]; rfl, ?_, circleF_keeps _⟩⟩
      simpa [h] using hR
    · refine ⟨R, by rw [h]; simp, fun fuel => ⟨circleF, by rw [h]; rfl, ?_, circleF_keeps _⟩⟩
      simpa [h] using hR
  · obtain ⟨R, hR⟩ := rect_draws vb m h1 h2
    refine ⟨R, by rw [h]; simp, fun fuel => ⟨rectF fuel, by rw [h]; rfl, ?_, rectF_keeps fuel _⟩⟩
    simpa [h] using hR fuel

end GoSvg
