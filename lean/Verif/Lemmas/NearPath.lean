import Verif.Lemmas.Near

/-! Path data in binary64 and in exact arithmetic: how the rounding errors add up along a path. -/

namespace GoSvg.F64

open Spec

variable [Libm]

/-- A unit of error for numbers up to `2^e`. -/
noncomputable def ulp (e : Nat) : ℝ := 2 ^ e / 2 ^ 52

theorem ulp_pos (e : Nat) : 0 < ulp e := by unfold ulp; positivity

/-- A number as it is read. -/
abbrev Rd (e : Nat) (x : F64) (r : ℝ) : Prop := Near (ulp e / 4) x r

theorem off1 {e : Nat} (he : e ≤ 50) {n : ℝ} (hn0 : 0 ≤ n) (hn : (n + 1) * ulp e ≤ 2 ^ e) {x y : F64} {r s : ℝ} (hx : Rd e x r) (hy : Near (n * ulp e) y s)
    (hb : |r + s| ≤ 2 ^ e) : Near ((n + 1) * ulp e) (x +. y) (r + s) := by
  have hu := ulp_pos e
  have := near_add hx hy (E := e + 1) (by omega) (by
    rw [pow_succ]
    nlinarith)
  refine this.mono ?_
  have : (2 : ℝ) ^ (e + 1) / 2 ^ 54 = ulp e / 2 := by unfold ulp; rw [pow_succ]; ring
  rw [this]
  linarith

theorem off1' {e : Nat} (he : e ≤ 50) {n : ℝ} (hn0 : 0 ≤ n) (hn : (n + 1) * ulp e ≤ 2 ^ e) {x y : F64} {r s : ℝ} (hx : Rd e x r) (hy : Near (n * ulp e) y s)
    (hb : |s + r| ≤ 2 ^ e) : Near ((n + 1) * ulp e) (y +. x) (s + r) := by
  have hu := ulp_pos e
  have := near_add hy hx (E := e + 1) (by omega) (by
    rw [pow_succ]
    nlinarith)
  refine this.mono ?_
  have : (2 : ℝ) ^ (e + 1) / 2 ^ 54 = ulp e / 2 := by unfold ulp; rw [pow_succ]; ring
  rw [this]
  linarith

theorem mirror1 {e : Nat} (he : e ≤ 50) {n c : ℝ} (hn0 : 0 ≤ n) (hc0 : 0 ≤ c) (hn : (c + 2 * n + 2) * ulp e ≤ 2 ^ e) {x y : F64} {r s : ℝ}
    (hx : Near (n * ulp e) x r) (hy : Near (c * ulp e) y s) (hr : |r| ≤ 2 ^ e)
    (hb : |r * 2 - s| ≤ 2 ^ e) : Near ((c + 2 * n + 2) * ulp e) (x *. num 2 -. y) (r * 2 - s) := by
  have hu := ulp_pos e
  have h2 : Near 0 (num 2 : F64) (2 : ℝ) := by
    have := near_is (is_num (q := 2) (by simpa using rep_nat (n := 2) (by norm_num)))
    simpa using this
  have hc := mul_nonneg hc0 hu.le
  have hnn := mul_nonneg hn0 hu.le
  have e2 : (2 : ℝ) ^ (e + 2) = 4 * 2 ^ e := by rw [pow_add]; ring
  have e1 : (2 : ℝ) ^ (e + 1) = 2 * 2 ^ e := by rw [pow_add]; ring
  have m := near_mul hx h2 (E := e + 2) (by omega) (by
    rw [abs_mul, abs_two, e2]
    nlinarith)
  rw [abs_two, e2] at m
  have eu : (4 : ℝ) * 2 ^ e / 2 ^ 54 = ulp e := by unfold ulp; ring
  have eu' : (2 : ℝ) * 2 ^ e / 2 ^ 54 = ulp e / 2 := by unfold ulp; ring
  rw [eu] at m
  have t := near_sub m hy (E := e + 1) (by omega) (by
    rw [e1]
    nlinarith)
  rw [e1, eu'] at t
  refine t.mono ?_
  nlinarith

/-- The error after `n` parameter sets: of the current point and of the last control point. -/
structure NSt (e : Nat) (n : Nat) (s : St F64) (t : St ℝ) : Prop where
  cur : R2 (Near (n * ulp e)) s.cur t.cur
  start : R2 (Near (n * ulp e)) s.start t.start
  ctrl : CtrlRel (Near (n * (n + 1) * ulp e)) s.ctrl t.ctrl
  small : Up2 e t.cur
  small' : Up2 e t.start

theorem R2.mono {d d' : ℝ} {p : Pnt F64} {r : Pnt ℝ} (h : R2 (Near d) p r) (hd : d ≤ d') : R2 (Near d') p r := ⟨h.1.mono hd, h.2.mono hd⟩

theorem near_off {e : Nat} (he : e ≤ 50) {n : Nat} (hn : ((n : ℝ) + 1) * ulp e ≤ 2 ^ e) (rel : Bool) {s : St F64} {t : St ℝ}
    (h : R2 (Near (n * ulp e)) s.cur t.cur) {p : Pnt F64} {r : Pnt ℝ} (hp : R2 (Rd e) p r) (hb : Up2 e (off rel t r)) :
    R2 (Near ((n + 1) * ulp e)) (off rel s p) (off rel t r) := by
  have hn0 : (0 : ℝ) ≤ n := by positivity
  have hu := ulp_pos e
  cases rel
  · exact hp.mono (by nlinarith)
  · exact ⟨off1 he hn0 hn hp.1 h.1 hb.1, off1 he hn0 hn hp.2 h.2 hb.2⟩

theorem near_mirror {e : Nat} (he : e ≤ 50) {n : Nat} (hn : ((n : ℝ) + 1) * (n + 2) * ulp e ≤ 2 ^ e) {p q : Pnt F64} {r s : Pnt ℝ}
    (hp : R2 (Near (n * ulp e)) p r) (hq : R2 (Near (n * (n + 1) * ulp e)) q s) (hr : Up2 e r) (hb : Up2 e (mirror r s)) :
    R2 (Near ((n + 1) * (n + 2) * ulp e)) (mirror p q) (mirror r s) := by
  have e' : ∀ a b : ℝ, (a *. num 2 -. b : ℝ) = a * 2 - b := by
    intro a b
    show a * ((2 : ℚ) : ℝ) - b = _
    norm_num
  have hn0 : (0 : ℝ) ≤ n := by positivity
  have hc0 : (0 : ℝ) ≤ n * (n + 1) := by positivity
  have ed : ((n : ℝ) + 1) * (n + 2) = n * (n + 1) + 2 * n + 2 := by ring
  rw [ed] at hn ⊢
  unfold Up2 mirror at hb
  unfold mirror
  simp only [e'] at hb ⊢
  exact ⟨mirror1 he hn0 hc0 hn hp.1 hq.1 hr.1 hb.1, mirror1 he hn0 hc0 hn hp.2 hq.2 hr.2 hb.2⟩

theorem near_step {e : Nat} (he : e ≤ 50) {n : Nat} (hn : ((n : ℝ) + 1) * (n + 2) * ulp e ≤ 2 ^ e) (rel : Bool) {s : St F64} {t : St ℝ}
    (h : NSt e n s t) {g : Seg F64} {g' : Seg ℝ} (hg : SegRel (Rd e) g g') (hb : UpOp e (step rel t g').1) :
    OpRel (Near ((n + 1) * (n + 2) * ulp e)) (step rel s g).1 (step rel t g').1 ∧ NSt e (n + 1) (step rel s g).2 (step rel t g').2 := by
  have hu := ulp_pos e
  have hn0 : (0 : ℝ) ≤ n := by positivity
  have hn1 : ((n : ℝ) + 1) * ulp e ≤ 2 ^ e := by nlinarith [mul_nonneg hn0 hu.le, mul_nonneg (mul_nonneg hn0 hn0) hu.le]
  have w1 : ((n : ℝ) + 1) * ulp e ≤ (n + 1) * (n + 2) * ulp e := by nlinarith [mul_nonneg hn0 hu.le, mul_nonneg (mul_nonneg hn0 hn0) hu.le]
  have w2 : (n : ℝ) * ulp e ≤ (n + 1) * ulp e := by nlinarith
  have c1 : (((n + 1 : Nat) : ℝ)) * ulp e = (n + 1) * ulp e := by push_cast; ring
  have c2 : (((n + 1 : Nat) : ℝ)) * (((n + 1 : Nat) : ℝ) + 1) * ulp e = (n + 1) * (n + 2) * ulp e := by push_cast; ring
  have mk : ∀ {s' : St F64} {t' : St ℝ}, R2 (Near ((n + 1) * ulp e)) s'.cur t'.cur → R2 (Near ((n + 1) * ulp e)) s'.start t'.start →
      CtrlRel (Near ((n + 1) * (n + 2) * ulp e)) s'.ctrl t'.ctrl → Up2 e t'.cur → Up2 e t'.start → NSt e (n + 1) s' t' := by
    intro s' t' a1 a2 a3 a4 a5
    exact ⟨by rw [c1]; exact a1, by rw [c1]; exact a2, by rw [c2]; exact a3, a4, a5⟩
  obtain ⟨hcur, hstart, hctrl, hsm, hsm'⟩ := h
  have hstart' := hstart.mono w2
  cases hg with
  | move hp =>
    have := near_off he hn1 rel hcur hp hb
    exact ⟨.moveTo (this.mono w1), mk this this .none hb hb⟩
  | line hp =>
    have := near_off he hn1 rel hcur hp hb
    exact ⟨.lineTo (this.mono w1), mk this hstart' .none hb hsm'⟩
  | @horiz x r hx =>
    have : R2 (Near ((n + 1) * ulp e)) (if rel then s.cur.1 +. x else x, s.cur.2) (if rel then t.cur.1 +. r else r, t.cur.2) := by
      refine ⟨?_, hcur.2.mono w2⟩
      cases rel
      · exact hx.mono (by nlinarith)
      · exact off1' he hn0 hn1 hx hcur.1 hb.1
    exact ⟨.lineTo (this.mono w1), mk this hstart' .none hb hsm'⟩
  | @vert x r hx =>
    have : R2 (Near ((n + 1) * ulp e)) (s.cur.1, if rel then s.cur.2 +. x else x) (t.cur.1, if rel then t.cur.2 +. r else r) := by
      refine ⟨hcur.1.mono w2, ?_⟩
      cases rel
      · exact hx.mono (by nlinarith)
      · exact off1' he hn0 hn1 hx hcur.2 hb.2
    exact ⟨.lineTo (this.mono w1), mk this hstart' .none hb hsm'⟩
  | cubic h1 h2 hp =>
    have a1 := near_off he hn1 rel hcur h1 hb.1
    have a2 := near_off he hn1 rel hcur h2 hb.2.1
    have a3 := near_off he hn1 rel hcur hp hb.2.2
    exact ⟨.cubicTo (a1.mono w1) (a2.mono w1) (a3.mono w1), mk a3 hstart' (.cubic (a2.mono w1)) hb.2.2 hsm'⟩
  | smooth h2 hp =>
    have a2 := near_off he hn1 rel hcur h2 hb.2.1
    have a3 := near_off he hn1 rel hcur hp hb.2.2
    have hc := (hcur.mono w2).mono w1
    obtain ⟨scur, sstart, sctrl⟩ := s
    obtain ⟨tcur, tstart, tctrl⟩ := t
    cases hctrl with
    | none => exact ⟨.cubicTo hc (a2.mono w1) (a3.mono w1), mk a3 hstart' (.cubic (a2.mono w1)) hb.2.2 hsm'⟩
    | cubic hr =>
      exact ⟨.cubicTo (near_mirror he hn hcur hr hsm hb.1) (a2.mono w1) (a3.mono w1), mk a3 hstart' (.cubic (a2.mono w1)) hb.2.2 hsm'⟩
    | quad hr => exact ⟨.cubicTo hc (a2.mono w1) (a3.mono w1), mk a3 hstart' (.cubic (a2.mono w1)) hb.2.2 hsm'⟩
  | quad h1 hp =>
    have a1 := near_off he hn1 rel hcur h1 hb.1
    have a3 := near_off he hn1 rel hcur hp hb.2
    exact ⟨.quadTo (a1.mono w1) (a3.mono w1), mk a3 hstart' (.quad (a1.mono w1)) hb.2 hsm'⟩
  | tquad hp =>
    have a3 := near_off he hn1 rel hcur hp hb.2
    have hc := (hcur.mono w2).mono w1
    obtain ⟨scur, sstart, sctrl⟩ := s
    obtain ⟨tcur, tstart, tctrl⟩ := t
    cases hctrl with
    | none => exact ⟨.quadTo hc (a3.mono w1), mk a3 hstart' (.quad hc) hb.2 hsm'⟩
    | cubic hr => exact ⟨.quadTo hc (a3.mono w1), mk a3 hstart' (.quad hc) hb.2 hsm'⟩
    | quad hr =>
      have m := near_mirror he hn hcur hr hsm hb.1
      exact ⟨.quadTo m (a3.mono w1), mk a3 hstart' (.quad m) hb.2 hsm'⟩
  | close => exact ⟨.close, mk hstart' hstart' .none hsm' hsm'⟩

theorem OpRel.mono {d d' : ℝ} {o : GOp F64} {o' : GOp ℝ} (h : OpRel (Near d) o o') (hd : d ≤ d') : OpRel (Near d') o o' := by
  cases h with
  | moveTo h => exact .moveTo (h.mono hd)
  | lineTo h => exact .lineTo (h.mono hd)
  | quadTo h h' => exact .quadTo (h.mono hd) (h'.mono hd)
  | cubicTo h h' h'' => exact .cubicTo (h.mono hd) (h'.mono hd) (h''.mono hd)
  | close => exact .close

theorem near_exec {e : Nat} (he : e ≤ 50) {N : Nat} (hN : (N : ℝ) * (N + 1) * ulp e ≤ 2 ^ e) {gs : List (Bool × Seg F64)} {gs' : List (Bool × Seg ℝ)}
    (hg : List.Forall₂ (fun a b => a.1 = b.1 ∧ SegRel (Rd e) a.2 b.2) gs gs') : ∀ {n : Nat} {s : St F64} {t : St ℝ}, NSt e n s t →
    n + gs.length ≤ N → (∀ o ∈ (exec t gs').1, UpOp e o) →
    List.Forall₂ (OpRel (Near (N * (N + 1) * ulp e))) (exec s gs).1 (exec t gs').1 := by
  induction hg with
  | nil => intro n s t _ _ _; exact .nil
  | @cons a b as bs hab _ ih =>
    intro n s t h hl hb
    obtain ⟨rel, g⟩ := a
    obtain ⟨rel', g'⟩ := b
    obtain ⟨rfl, hg⟩ := hab
    simp only [exec] at hb ⊢
    rw [List.length_cons] at hl
    have hu := ulp_pos e
    have hle : ((n : ℝ) + 1) * (n + 2) * ulp e ≤ N * (N + 1) * ulp e := by
      have h1 : ((n : ℝ) + 1) ≤ N := by exact_mod_cast (by omega : n + 1 ≤ N)
      have h2 : ((n : ℝ) + 2) ≤ N + 1 := by linarith
      have h3 : (0 : ℝ) ≤ n := by positivity
      apply mul_le_mul_of_nonneg_right _ hu.le
      apply mul_le_mul h1 h2 (by linarith) (by linarith)
    have h1 := near_step he (hle.trans hN) rel h hg (hb _ List.mem_cons_self)
    exact .cons (h1.1.mono hle) (ih h1.2 (by omega) fun o ho => hb o (List.mem_cons_of_mem _ ho))

theorem exec_length {F : Type} [GoFloat F] : ∀ (gs : List (Bool × Seg F)) (s : St F), (exec s gs).1.length = gs.length
  | [], _ => rfl
  | (rel, g) :: gs, s => by
    simp only [exec, List.length_cons]
    rw [exec_length gs]

theorem near_draw {e : Nat} (he : e ≤ 50) {cmds : List (Cmd F64)} {cmds' : List (Cmd ℝ)} (h : List.Forall₂ (CmdRel (Rd e)) cmds cmds')
    {N : Nat} (hl : (draw cmds').length ≤ N) (hN : (N : ℝ) * (N + 1) * ulp e ≤ 2 ^ e)
    (hb : ∀ o ∈ draw cmds', UpOp e o) : List.Forall₂ (OpRel (Near (N * (N + 1) * ulp e))) (draw cmds) (draw cmds') := by
  have h0 : Near (((0 : Nat) : ℝ) * ulp e) (num 0 : F64) (num 0 : ℝ) := by
    have := near_is (is_num rep_zero)
    simpa using this
  have z : Up2 e ((num 0, num 0) : Pnt ℝ) := by
    have : |(num 0 : ℝ)| ≤ 2 ^ e := by simp
    exact ⟨this, this⟩
  have hs := segs_all_rel h
  refine near_exec he hN hs (n := 0) ⟨⟨h0, h0⟩, ⟨h0, h0⟩, .none, z, z⟩ ?_ hb
  rw [hs.length_eq, Nat.zero_add]
  rwa [draw, exec_length] at hl

end GoSvg.F64
