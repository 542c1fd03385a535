import Verif.Lemmas.Float64
import Verif.Spec.SvgPath

/-! Path data in binary64 and in exact arithmetic: on a binary grid both compute the same. -/

namespace GoSvg.F64

open Spec

variable [Libm]

/-- The number of binary64 is the real number, which is on the grid. -/
def E (k : Nat) (x : F64) (r : ℝ) : Prop := ∃ n : ℤ, |n| ≤ 2 ^ 51 ∧ Is x ((n : ℚ) / 2 ^ k) ∧ r = n / 2 ^ k

theorem int_bound {k : Nat} {n : ℤ} (h : |(n : ℝ) / 2 ^ k| ≤ 2 ^ 51 / 2 ^ k) : |n| ≤ 2 ^ 51 := by
  have hp : (0 : ℝ) < 2 ^ k := by positivity
  rw [abs_div, abs_of_pos hp, div_le_div_iff_of_pos_right hp, ← Int.cast_abs] at h
  exact_mod_cast h

theorem e_add {k : Nat} (hk : k ≤ 1074) {x y : F64} {r s : ℝ} (hx : E k x r) (hy : E k y s) (hb : |r + s| ≤ 2 ^ 51 / 2 ^ k) :
    E k (x +. y) (r + s) := by
  obtain ⟨n, hn, h1, rfl⟩ := hx
  obtain ⟨m, hm, h2, rfl⟩ := hy
  have e : ((n : ℝ) / 2 ^ k + m / 2 ^ k) = ((n + m : ℤ) : ℝ) / 2 ^ k := by push_cast; ring
  have eq : ((n : ℚ) / 2 ^ k + m / 2 ^ k) = ((n + m : ℤ) : ℚ) / 2 ^ k := by push_cast; ring
  rw [e] at hb ⊢
  have hb := int_bound hb
  refine ⟨n + m, hb, ?_, rfl⟩
  rw [← eq]
  apply is_add h1 h2
  rw [eq]
  exact rep_grid hk (hb.trans_lt (by norm_num))

theorem e_mirror {k : Nat} (hk : k ≤ 1074) {x y : F64} {r s : ℝ} (hx : E k x r) (hy : E k y s) (hb : |r * 2 - s| ≤ 2 ^ 51 / 2 ^ k) :
    E k (x *. num 2 -. y) (r * 2 - s) := by
  obtain ⟨n, hn, h1, rfl⟩ := hx
  obtain ⟨m, hm, h2, rfl⟩ := hy
  have e : ((n : ℝ) / 2 ^ k * 2 - m / 2 ^ k) = ((2 * n - m : ℤ) : ℝ) / 2 ^ k := by push_cast; ring
  have e2 : ((n : ℚ) / 2 ^ k * 2) = ((2 * n : ℤ) : ℚ) / 2 ^ k := by push_cast; ring
  have eq : ((n : ℚ) / 2 ^ k * 2 - m / 2 ^ k) = ((2 * n - m : ℤ) : ℚ) / 2 ^ k := by push_cast; ring
  rw [e] at hb ⊢
  have hb := int_bound hb
  refine ⟨2 * n - m, hb, ?_, rfl⟩
  rw [← eq]
  have h3 : Is (num 2 : F64) (2 : ℚ) := is_num (by simpa using rep_nat (n := 2) (by norm_num))
  have hr : Rep ((n : ℚ) / 2 ^ k * 2) := by
    rw [e2]
    apply rep_grid hk
    rw [abs_mul, abs_of_pos (by norm_num : (0 : ℤ) < 2)]
    calc 2 * |n| ≤ 2 * 2 ^ 51 := by omega
      _ < 2 ^ 53 := by norm_num
  apply is_sub (is_mul h1 h3 hr) h2
  rw [eq]
  exact rep_grid hk (hb.trans_lt (by norm_num))

theorem e_zero (k : Nat) : E k (num 0 : F64) 0 := ⟨0, by norm_num, by simpa using is_num rep_zero, by simp⟩

/-- Both coordinates are so related. -/
def R2 (R : F64 → ℝ → Prop) (p : Pnt F64) (r : Pnt ℝ) : Prop := R p.1 r.1 ∧ R p.2 r.2

abbrev E2 (k : Nat) : Pnt F64 → Pnt ℝ → Prop := R2 (E k)

inductive SegRel (R : F64 → ℝ → Prop) : Seg F64 → Seg ℝ → Prop
  | move {p r} : R2 R p r → SegRel R (.move p) (.move r)
  | line {p r} : R2 R p r → SegRel R (.line p) (.line r)
  | horiz {x r} : R x r → SegRel R (.horiz x) (.horiz r)
  | vert {x r} : R x r → SegRel R (.vert x) (.vert r)
  | cubic {p1 p2 p r1 r2 r} : R2 R p1 r1 → R2 R p2 r2 → R2 R p r → SegRel R (.cubic p1 p2 p) (.cubic r1 r2 r)
  | smooth {p2 p r2 r} : R2 R p2 r2 → R2 R p r → SegRel R (.smooth p2 p) (.smooth r2 r)
  | quad {p1 p r1 r} : R2 R p1 r1 → R2 R p r → SegRel R (.quad p1 p) (.quad r1 r)
  | tquad {p r} : R2 R p r → SegRel R (.tquad p) (.tquad r)
  | close : SegRel R .close .close

inductive OpRel (R : F64 → ℝ → Prop) : GOp F64 → GOp ℝ → Prop
  | moveTo {p r} : R2 R p r → OpRel R (.moveTo p) (.moveTo r)
  | lineTo {p r} : R2 R p r → OpRel R (.lineTo p) (.lineTo r)
  | quadTo {p1 p r1 r} : R2 R p1 r1 → R2 R p r → OpRel R (.quadTo p1 p) (.quadTo r1 r)
  | cubicTo {p1 p2 p r1 r2 r} : R2 R p1 r1 → R2 R p2 r2 → R2 R p r → OpRel R (.cubicTo p1 p2 p) (.cubicTo r1 r2 r)
  | close : OpRel R .close .close

inductive CtrlRel (R : F64 → ℝ → Prop) : Ctrl F64 → Ctrl ℝ → Prop
  | none : CtrlRel R .none .none
  | cubic {p r} : R2 R p r → CtrlRel R (.cubic p) (.cubic r)
  | quad {p r} : R2 R p r → CtrlRel R (.quad p) (.quad r)

structure StRel (k : Nat) (s : St F64) (t : St ℝ) : Prop where
  cur : E2 k s.cur t.cur
  start : E2 k s.start t.start
  ctrl : CtrlRel (E k) s.ctrl t.ctrl

theorem off_rel {k : Nat} (hk : k ≤ 1074) (rel : Bool) {s : St F64} {t : St ℝ} (h : E2 k s.cur t.cur) {p : Pnt F64} {r : Pnt ℝ}
    (hp : E2 k p r) (hb : Low2 k (off rel t r)) : E2 k (off rel s p) (off rel t r) := by
  cases rel
  · exact hp
  · exact ⟨e_add hk hp.1 h.1 hb.1, e_add hk hp.2 h.2 hb.2⟩

theorem mirror_rel {k : Nat} (hk : k ≤ 1074) {p q : Pnt F64} {r s : Pnt ℝ} (hp : E2 k p r) (hq : E2 k q s)
    (hb : Low2 k (mirror r s)) : E2 k (mirror p q) (mirror r s) := by
  have e : ∀ a b : ℝ, (a *. num 2 -. b : ℝ) = a * 2 - b := by
    intro a b
    show a * ((2 : ℚ) : ℝ) - b = _
    norm_num
  unfold Low2 mirror at hb
  unfold mirror
  simp only [e] at hb ⊢
  exact ⟨e_mirror hk hp.1 hq.1 hb.1, e_mirror hk hp.2 hq.2 hb.2⟩

theorem step_rel {k : Nat} (hk : k ≤ 1074) (rel : Bool) {s : St F64} {t : St ℝ} (h : StRel k s t) {g : Seg F64} {g' : Seg ℝ}
    (hg : SegRel (E k) g g') (hb : LowOp k (step rel t g').1) :
    OpRel (E k) (step rel s g).1 (step rel t g').1 ∧ StRel k (step rel s g).2 (step rel t g').2 := by
  obtain ⟨hcur, hstart, hctrl⟩ := h
  cases hg with
  | move hp =>
    have := off_rel hk rel hcur hp hb
    exact ⟨.moveTo this, ⟨this, this, .none⟩⟩
  | line hp =>
    have := off_rel hk rel hcur hp hb
    exact ⟨.lineTo this, ⟨this, hstart, .none⟩⟩
  | @horiz x r hx =>
    have : E2 k (if rel then s.cur.1 +. x else x, s.cur.2) (if rel then t.cur.1 +. r else r, t.cur.2) := by
      refine ⟨?_, hcur.2⟩
      cases rel
      · exact hx
      · exact e_add hk hcur.1 hx hb.1
    exact ⟨.lineTo this, ⟨this, hstart, .none⟩⟩
  | @vert x r hx =>
    have : E2 k (s.cur.1, if rel then s.cur.2 +. x else x) (t.cur.1, if rel then t.cur.2 +. r else r) := by
      refine ⟨hcur.1, ?_⟩
      cases rel
      · exact hx
      · exact e_add hk hcur.2 hx hb.2
    exact ⟨.lineTo this, ⟨this, hstart, .none⟩⟩
  | cubic h1 h2 hp =>
    have a1 := off_rel hk rel hcur h1 hb.1
    have a2 := off_rel hk rel hcur h2 hb.2.1
    have a3 := off_rel hk rel hcur hp hb.2.2
    exact ⟨.cubicTo a1 a2 a3, ⟨a3, hstart, .cubic a2⟩⟩
  | smooth h2 hp =>
    have a2 := off_rel hk rel hcur h2 hb.2.1
    have a3 := off_rel hk rel hcur hp hb.2.2
    obtain ⟨scur, sstart, sctrl⟩ := s
    obtain ⟨tcur, tstart, tctrl⟩ := t
    cases hctrl with
    | none => exact ⟨.cubicTo hcur a2 a3, ⟨a3, hstart, .cubic a2⟩⟩
    | cubic hr => exact ⟨.cubicTo (mirror_rel hk hcur hr hb.1) a2 a3, ⟨a3, hstart, .cubic a2⟩⟩
    | quad hr => exact ⟨.cubicTo hcur a2 a3, ⟨a3, hstart, .cubic a2⟩⟩
  | quad h1 hp =>
    have a1 := off_rel hk rel hcur h1 hb.1
    have a3 := off_rel hk rel hcur hp hb.2
    exact ⟨.quadTo a1 a3, ⟨a3, hstart, .quad a1⟩⟩
  | tquad hp =>
    have a3 := off_rel hk rel hcur hp hb.2
    obtain ⟨scur, sstart, sctrl⟩ := s
    obtain ⟨tcur, tstart, tctrl⟩ := t
    cases hctrl with
    | none => exact ⟨.quadTo hcur a3, ⟨a3, hstart, .quad hcur⟩⟩
    | cubic hr => exact ⟨.quadTo hcur a3, ⟨a3, hstart, .quad hcur⟩⟩
    | quad hr => exact ⟨.quadTo (mirror_rel hk hcur hr hb.1) a3, ⟨a3, hstart, .quad (mirror_rel hk hcur hr hb.1)⟩⟩
  | close => exact ⟨.close, ⟨hstart, hstart, .none⟩⟩

theorem exec_rel {k : Nat} (hk : k ≤ 1074) {gs : List (Bool × Seg F64)} {gs' : List (Bool × Seg ℝ)}
    (hg : List.Forall₂ (fun a b => a.1 = b.1 ∧ SegRel (E k) a.2 b.2) gs gs') : ∀ {s : St F64} {t : St ℝ}, StRel k s t →
    (∀ o ∈ (exec t gs').1, LowOp k o) → List.Forall₂ (OpRel (E k)) (exec s gs).1 (exec t gs').1 := by
  induction hg with
  | nil => intro s t _ _; exact .nil
  | @cons a b as bs hab _ ih =>
    intro s t h hb
    obtain ⟨rel, g⟩ := a
    obtain ⟨rel', g'⟩ := b
    obtain ⟨rfl, hg⟩ := hab
    simp only [exec] at hb ⊢
    have h1 := step_rel hk rel h hg (hb _ List.mem_cons_self)
    exact .cons h1.1 (ih h1.2 fun o ho => hb o (List.mem_cons_of_mem _ ho))

/-! ### Commands -/

inductive CmdRel (R : F64 → ℝ → Prop) : Cmd F64 → Cmd ℝ → Prop
  | move {rel p ps r rs} : R2 R p r → List.Forall₂ (R2 R) ps rs → CmdRel R (.move rel p ps) (.move rel r rs)
  | line {rel p ps r rs} : R2 R p r → List.Forall₂ (R2 R) ps rs → CmdRel R (.line rel p ps) (.line rel r rs)
  | horiz {rel p ps r rs} : R p r → List.Forall₂ R ps rs → CmdRel R (.horiz rel p ps) (.horiz rel r rs)
  | vert {rel p ps r rs} : R p r → List.Forall₂ R ps rs → CmdRel R (.vert rel p ps) (.vert rel r rs)
  | cubic {rel p ps r rs} : (R2 R p.1 r.1 ∧ R2 R p.2.1 r.2.1 ∧ R2 R p.2.2 r.2.2) →
      List.Forall₂ (fun p r => R2 R p.1 r.1 ∧ R2 R p.2.1 r.2.1 ∧ R2 R p.2.2 r.2.2) ps rs → CmdRel R (.cubic rel p ps) (.cubic rel r rs)
  | smooth {rel p ps r rs} : (R2 R p.1 r.1 ∧ R2 R p.2 r.2) → List.Forall₂ (fun p r => R2 R p.1 r.1 ∧ R2 R p.2 r.2) ps rs →
      CmdRel R (.smooth rel p ps) (.smooth rel r rs)
  | quad {rel p ps r rs} : (R2 R p.1 r.1 ∧ R2 R p.2 r.2) → List.Forall₂ (fun p r => R2 R p.1 r.1 ∧ R2 R p.2 r.2) ps rs →
      CmdRel R (.quad rel p ps) (.quad rel r rs)
  | tquad {rel p ps r rs} : R2 R p r → List.Forall₂ (R2 R) ps rs → CmdRel R (.tquad rel p ps) (.tquad rel r rs)
  | close {rel} : CmdRel R (.close rel) (.close rel)

theorem flat2_inv {R : F64 → ℝ → Prop} : ∀ {rs : List (Pnt ℝ)} {vs : List F64}, List.Forall₂ R vs (flat2 rs) →
    ∃ ps, vs = flat2 ps ∧ List.Forall₂ (R2 R) ps rs
  | [], vs, h => by
    cases h; exact ⟨[], rfl, .nil⟩
  | r :: rs, vs, h => by
    have h : List.Forall₂ R vs (r.1 :: r.2 :: flat2 rs) := h
    cases h with
    | cons h1 h => cases h with
      | cons h2 h =>
        obtain ⟨ps, rfl, hp⟩ := flat2_inv h
        exact ⟨(_, _) :: ps, rfl, .cons ⟨h1, h2⟩ hp⟩

theorem flat4_inv {R : F64 → ℝ → Prop} : ∀ {rs : List (Pnt ℝ × Pnt ℝ)} {vs : List F64}, List.Forall₂ R vs (flat4 rs) →
    ∃ ps, vs = flat4 ps ∧ List.Forall₂ (fun p r => R2 R p.1 r.1 ∧ R2 R p.2 r.2) ps rs
  | [], vs, h => by
    cases h; exact ⟨[], rfl, .nil⟩
  | r :: rs, vs, h => by
    have h : List.Forall₂ R vs (r.1.1 :: r.1.2 :: r.2.1 :: r.2.2 :: flat4 rs) := h
    cases h with
    | cons h1 h => cases h with
      | cons h2 h => cases h with
        | cons h3 h => cases h with
          | cons h4 h =>
            obtain ⟨ps, rfl, hp⟩ := flat4_inv h
            exact ⟨((_, _), (_, _)) :: ps, rfl, .cons ⟨⟨h1, h2⟩, ⟨h3, h4⟩⟩ hp⟩

theorem flat6_inv {R : F64 → ℝ → Prop} : ∀ {rs : List (Pnt ℝ × Pnt ℝ × Pnt ℝ)} {vs : List F64}, List.Forall₂ R vs (flat6 rs) →
    ∃ ps, vs = flat6 ps ∧ List.Forall₂ (fun p r => R2 R p.1 r.1 ∧ R2 R p.2.1 r.2.1 ∧ R2 R p.2.2 r.2.2) ps rs
  | [], vs, h => by
    cases h; exact ⟨[], rfl, .nil⟩
  | r :: rs, vs, h => by
    have h : List.Forall₂ R vs (r.1.1 :: r.1.2 :: r.2.1.1 :: r.2.1.2 :: r.2.2.1 :: r.2.2.2 :: flat6 rs) := h
    cases h with
    | cons h1 h => cases h with
      | cons h2 h => cases h with
        | cons h3 h => cases h with
          | cons h4 h => cases h with
            | cons h5 h => cases h with
              | cons h6 h =>
                obtain ⟨ps, rfl, hp⟩ := flat6_inv h
                exact ⟨((_, _), (_, _), (_, _)) :: ps, rfl, .cons ⟨⟨h1, h2⟩, ⟨h3, h4⟩, ⟨h5, h6⟩⟩ hp⟩

theorem cmd_inv {R : F64 → ℝ → Prop} {cmd : Cmd ℝ} {vs : List F64} (h : List.Forall₂ R vs cmd.args) :
    ∃ cmd', cmd'.letter = cmd.letter ∧ cmd'.args = vs ∧ CmdRel R cmd' cmd := by
  cases cmd with
  | move rel r rs =>
    obtain ⟨ps, rfl, hp⟩ := flat2_inv h
    cases hp with | cons h1 h2 => exact ⟨.move rel _ _, rfl, rfl, .move h1 h2⟩
  | line rel r rs =>
    obtain ⟨ps, rfl, hp⟩ := flat2_inv h
    cases hp with | cons h1 h2 => exact ⟨.line rel _ _, rfl, rfl, .line h1 h2⟩
  | horiz rel r rs =>
    cases h with | cons h1 h2 => exact ⟨.horiz rel _ _, rfl, rfl, .horiz h1 h2⟩
  | vert rel r rs =>
    cases h with | cons h1 h2 => exact ⟨.vert rel _ _, rfl, rfl, .vert h1 h2⟩
  | cubic rel r rs =>
    obtain ⟨ps, rfl, hp⟩ := flat6_inv h
    cases hp with | cons h1 h2 => exact ⟨.cubic rel _ _, rfl, rfl, .cubic h1 h2⟩
  | smooth rel r rs =>
    obtain ⟨ps, rfl, hp⟩ := flat4_inv h
    cases hp with | cons h1 h2 => exact ⟨.smooth rel _ _, rfl, rfl, .smooth h1 h2⟩
  | quad rel r rs =>
    obtain ⟨ps, rfl, hp⟩ := flat4_inv h
    cases hp with | cons h1 h2 => exact ⟨.quad rel _ _, rfl, rfl, .quad h1 h2⟩
  | tquad rel r rs =>
    obtain ⟨ps, rfl, hp⟩ := flat2_inv h
    cases hp with | cons h1 h2 => exact ⟨.tquad rel _ _, rfl, rfl, .tquad h1 h2⟩
  | close rel =>
    cases h; exact ⟨.close rel, rfl, rfl, .close⟩

theorem forall₂_map {α β γ δ : Type} {R : α → β → Prop} {S : γ → δ → Prop} {f : α → γ} {g : β → δ} (h : ∀ a b, R a b → S (f a) (g b)) :
    ∀ {as : List α} {bs : List β}, List.Forall₂ R as bs → List.Forall₂ S (as.map f) (bs.map g)
  | _, _, .nil => .nil
  | _, _, .cons h1 h2 => .cons (h _ _ h1) (forall₂_map h h2)

theorem segs_rel {R : F64 → ℝ → Prop} {cmd : Cmd F64} {cmd' : Cmd ℝ} (h : CmdRel R cmd cmd') :
    List.Forall₂ (fun a b => a.1 = b.1 ∧ SegRel R a.2 b.2) cmd.segs cmd'.segs := by
  cases h with
  | move h1 h2 => exact .cons ⟨rfl, .move h1⟩ (forall₂_map (fun _ _ h => ⟨rfl, .line h⟩) h2)
  | line h1 h2 => exact forall₂_map (fun _ _ h => ⟨rfl, .line h⟩) (.cons h1 h2)
  | horiz h1 h2 => exact forall₂_map (fun _ _ h => ⟨rfl, .horiz h⟩) (.cons h1 h2)
  | vert h1 h2 => exact forall₂_map (fun _ _ h => ⟨rfl, .vert h⟩) (.cons h1 h2)
  | cubic h1 h2 =>
    exact forall₂_map (fun _ _ h => ⟨rfl, .cubic h.1 h.2.1 h.2.2⟩) (.cons (R := fun p r => R2 R p.1 r.1 ∧ R2 R p.2.1 r.2.1 ∧ R2 R p.2.2 r.2.2) h1 h2)
  | smooth h1 h2 => exact forall₂_map (fun _ _ h => ⟨rfl, .smooth h.1 h.2⟩) (.cons (R := fun p r => R2 R p.1 r.1 ∧ R2 R p.2 r.2) h1 h2)
  | quad h1 h2 => exact forall₂_map (fun _ _ h => ⟨rfl, .quad h.1 h.2⟩) (.cons (R := fun p r => R2 R p.1 r.1 ∧ R2 R p.2 r.2) h1 h2)
  | tquad h1 h2 => exact forall₂_map (fun _ _ h => ⟨rfl, .tquad h⟩) (.cons h1 h2)
  | close => exact .cons ⟨rfl, .close⟩ .nil

theorem forall₂_append {α β : Type} {R : α → β → Prop} {as as' : List α} {bs bs' : List β} (h : List.Forall₂ R as bs)
    (h' : List.Forall₂ R as' bs') : List.Forall₂ R (as ++ as') (bs ++ bs') := by
  induction h with
  | nil => exact h'
  | cons h _ ih => exact .cons h ih

theorem segs_all_rel {R : F64 → ℝ → Prop} {cmds : List (Cmd F64)} {cmds' : List (Cmd ℝ)} (h : List.Forall₂ (CmdRel R) cmds cmds') :
    List.Forall₂ (fun a b => a.1 = b.1 ∧ SegRel R a.2 b.2) (cmds.flatMap Cmd.segs) (cmds'.flatMap Cmd.segs) := by
  induction h with
  | nil => exact .nil
  | cons h _ ih =>
    rw [List.flatMap_cons, List.flatMap_cons]
    exact forall₂_append (segs_rel h) ih

theorem starts_rel {R : F64 → ℝ → Prop} {cmds : List (Cmd F64)} {cmds' : List (Cmd ℝ)} (h : List.Forall₂ (CmdRel R) cmds cmds') :
    ∀ b, StartsWithMoves b cmds' → StartsWithMoves b cmds := by
  induction h with
  | nil => intro b _; trivial
  | cons h _ ih =>
    intro b hb
    cases h with
    | move => exact ih true hb
    | close => exact ⟨hb.1, ih false hb.2⟩
    | line => exact ⟨hb.1, ih b hb.2⟩
    | horiz => exact ⟨hb.1, ih b hb.2⟩
    | vert => exact ⟨hb.1, ih b hb.2⟩
    | cubic => exact ⟨hb.1, ih b hb.2⟩
    | smooth => exact ⟨hb.1, ih b hb.2⟩
    | quad => exact ⟨hb.1, ih b hb.2⟩
    | tquad => exact ⟨hb.1, ih b hb.2⟩

theorem draw_rel {k : Nat} (hk : k ≤ 1074) {cmds : List (Cmd F64)} {cmds' : List (Cmd ℝ)} (h : List.Forall₂ (CmdRel (E k)) cmds cmds')
    (hb : ∀ o ∈ draw cmds', LowOp k o) : List.Forall₂ (OpRel (E k)) (draw cmds) (draw cmds') := by
  have h0 : E k (num 0 : F64) (num 0 : ℝ) := by simpa using e_zero k
  exact exec_rel hk (segs_all_rel h) ⟨⟨h0, h0⟩, ⟨h0, h0⟩, .none⟩ hb

theorem toFix_e {k : Nat} (hk : k ≤ 1074) {x : F64} {r : ℝ} (h : E k x r) {z : F64} (hz : Is z 0) : toFix (x +. z) = toFix (r +. (0 : ℝ)) := by
  obtain ⟨n, hn, h1, rfl⟩ := h
  have h2 : Is (x +. z) ((n : ℚ) / 2 ^ k) := by
    have := is_add h1 hz (by rw [add_zero]; exact rep_grid hk (hn.trans_lt (by norm_num)))
    rwa [add_zero] at this
  have hlt : |(n : ℚ) / 2 ^ k| < 2 ^ 53 := by
    rw [abs_div, abs_of_pos (by positivity : (0 : ℚ) < 2 ^ k), div_lt_iff₀ (by positivity), ← Int.cast_abs]
    have h3 : ((|n| : ℤ) : ℚ) < 2 ^ 53 := by exact_mod_cast hn.trans_lt (by norm_num)
    have h4 : (1 : ℚ) ≤ 2 ^ k := one_le_pow₀ (by norm_num)
    nlinarith
  rw [toFix_is h2 hlt]
  show _ = toFix ((n : ℝ) / 2 ^ k + 0)
  rw [add_zero]
  congr 1
  push_cast; rfl

theorem store_rel {k : Nat} (hk : k ≤ 1074) {o : GOp F64} {o' : GOp ℝ} (h : OpRel (E k) o o') {z w : F64} (hz : Is z 0) (hw : Is w 0) :
    o.store toFix z w = o'.store toFix 0 0 := by
  cases h with
  | moveTo h => simp only [GOp.store, toFix_e hk h.1 hz, toFix_e hk h.2 hw]
  | lineTo h => simp only [GOp.store, toFix_e hk h.1 hz, toFix_e hk h.2 hw]
  | quadTo h1 h2 => simp only [GOp.store, toFix_e hk h1.1 hz, toFix_e hk h1.2 hw, toFix_e hk h2.1 hz, toFix_e hk h2.2 hw]
  | cubicTo h1 h2 h3 =>
    simp only [GOp.store, toFix_e hk h1.1 hz, toFix_e hk h1.2 hw, toFix_e hk h2.1 hz, toFix_e hk h2.2 hw, toFix_e hk h3.1 hz, toFix_e hk h3.2 hw]
  | close => rfl

/-- Texts of grid numbers are read exactly. -/
theorem readAll_grid [GoEnv] {k : Nat} (hk : k ≤ 1074) : ∀ (ns : List Spelling), (∀ n ∈ ns, n.WF) →
    (∀ n ∈ ns, Grid k (n.value : ℝ)) →
    ∃ vs : List F64, readAll (ns.map Spelling.text) = some vs ∧ List.Forall₂ (E k) (vs.map (· *. num 1)) (ns.map fun n => (n.value : ℝ))
  | [], _, _ => ⟨[], rfl, .nil⟩
  | n :: ns, hw, hg => by
    obtain ⟨vs, h1, h2⟩ := readAll_grid hk ns (fun m hm => hw m (List.mem_cons_of_mem _ hm)) (fun m hm => hg m (List.mem_cons_of_mem _ hm))
    obtain ⟨z, hz, hv⟩ := hg n List.mem_cons_self
    have hq : n.value = (z : ℚ) / 2 ^ k := by
      have : (n.value : ℝ) = (((z : ℚ) / 2 ^ k : ℚ) : ℝ) := by rw [hv]; push_cast; rfl
      exact_mod_cast this
    obtain ⟨x, hx, hI⟩ := parse_exact (hw n List.mem_cons_self) (by rw [hq]; exact rep_grid hk (hz.trans_lt (by norm_num)))
    refine ⟨x :: vs, ?_, ?_⟩
    · simp only [List.map_cons, readAll, hx, h1]
    · exact .cons ⟨z, hz, by rw [← hq]; exact is_mul_one hI, hv⟩ h2

end GoSvg.F64
