import Verif.Props.Shapes

/-! C57, C58: the order of attributes; the view box. -/

set_option linter.unusedSectionVars false

namespace GoSvg

open Spec
open SM (get modify lift)

variable {F : Type} [GoFloat F] [GoEnv]

/-! ### C57 -/

theorem distinct_perm {attrs attrs' : List Attr} (h : attrs.Perm attrs') (hd : Distinct attrs) : Distinct attrs' :=
  ((h.map Attr.name).nodup_iff).1 hd

/-- A variable set by at most one attribute does not depend on the order. -/
theorem perm_field {γ : Type} {p : Str → Prop} {val : Attr → Res γ} {attrs attrs' : List Attr} (h : attrs.Perm attrs')
    (hp : attrs.Pairwise (fun a a' => ¬ (p a.name ∧ p a'.name))) {x y z : γ}
    (h1 : (∃ a ∈ attrs, p a.name ∧ val a = .ok x) ∨ ((∀ a ∈ attrs, ¬ p a.name) ∧ x = z))
    (h2 : (∃ a ∈ attrs', p a.name ∧ val a = .ok y) ∨ ((∀ a ∈ attrs', ¬ p a.name) ∧ y = z)) : x = y := by
  rcases h1 with ⟨a, ha, pa, va⟩ | ⟨n1, rfl⟩
  · rcases h2 with ⟨a', ha', pa', va'⟩ | ⟨n2, -⟩
    · have : a = a' := by
        by_contra hne
        have : Std.Symm (fun a a' : Attr => ¬ (p a.name ∧ p a'.name)) := ⟨fun _ _ h hh => h ⟨hh.2, hh.1⟩⟩
        exact hp.forall ha (h.mem_iff.2 ha') hne ⟨pa, pa'⟩
      subst this
      rw [va] at va'
      exact Res.ok.inj va'
    · exact absurd pa (n2 a (h.mem_iff.1 ha))
  · rcases h2 with ⟨a', ha', pa', -⟩ | ⟨-, rfl⟩
    · exact absurd pa' (n1 a' (h.mem_iff.2 ha'))
    · rfl

/-- Steps that fail or not whatever the variables are, and never in another way than by an error. -/
def Uniform {β : Type} (step : β → Attr → Res β) : Prop :=
  ∀ a, (∀ b, ∃ b', step b a = .ok b') ∨ ∃ e, ∀ b, step b a = .err e

theorem loop_uniform {β : Type} {step : β → Attr → Res β} (hu : Uniform step) (attrs : List Attr) (b : β) :
    ((∀ a ∈ attrs, ∀ b, ∃ b', step b a = .ok b') ∧ ∃ b', Res.loop step b attrs = .ok b') ∨
    ((∃ a ∈ attrs, ∃ e, ∀ b, step b a = .err e) ∧ ∃ e, Res.loop step b attrs = .err e) := by
  induction attrs generalizing b with
  | nil => exact .inl ⟨by simp, b, rfl⟩
  | cons a as ih =>
    rcases hu a with h | ⟨e, h⟩
    · obtain ⟨b', hb⟩ := h b
      rcases ih b' with ⟨g1, g2⟩ | ⟨⟨x, hx, hx'⟩, g2⟩
      · refine .inl ⟨?_, by rw [Res.loop, hb]; exact g2⟩
        intro x hx
        rcases List.mem_cons.1 hx with rfl | hx
        · exact h
        · exact g1 x hx
      · exact .inr ⟨⟨x, List.mem_cons_of_mem _ hx, hx'⟩, by rw [Res.loop, hb]; exact g2⟩
    · exact .inr ⟨⟨a, List.mem_cons_self, e, h⟩, e, by rw [Res.loop, h b]⟩

/-- Both succeed, or both fail with an error. -/
theorem loop_perm {β : Type} {step : β → Attr → Res β} (hu : Uniform step) {attrs attrs' : List Attr} (h : attrs.Perm attrs') (b : β) :
    ((∃ b1, Res.loop step b attrs = .ok b1) ∧ ∃ b2, Res.loop step b attrs' = .ok b2) ∨
    ((∃ e, Res.loop step b attrs = .err e) ∧ ∃ e, Res.loop step b attrs' = .err e) := by
  rcases loop_uniform hu attrs b with ⟨g1, g2⟩ | ⟨⟨x, hx, e, hx'⟩, g2⟩ <;>
    rcases loop_uniform hu attrs' b with ⟨k1, k2⟩ | ⟨⟨y, hy, e', hy'⟩, k2⟩
  · exact .inl ⟨g2, k2⟩
  · obtain ⟨b', hb⟩ := g1 y (h.mem_iff.2 hy) b
    rw [hy' b] at hb; cases hb
  · obtain ⟨b', hb⟩ := k1 x (h.mem_iff.1 hx) b
    rw [hx' b] at hb; cases hb
  · exact .inr ⟨g2, k2⟩

theorem uniform_resolve {β : Type} (vb : Bounds F) (a : Attr) (r : PercRef) (g : β → F → β) :
    (∀ b, ∃ b', (do let x ← resolveUnit vb a.value r; .ok (g b x) : Res β) = .ok b') ∨
      ∃ e, ∀ b, (do let x ← resolveUnit vb a.value r; .ok (g b x) : Res β) = .err e := by
  rcases resolveUnit_cases vb a.value r with ⟨v, hv⟩ | hv
  · exact .inl fun b => ⟨_, by rw [hv]; rfl⟩
  · exact .inr ⟨_, fun b => by rw [hv]; rfl⟩

theorem rectAttr_uniform (vb : Bounds F) : Uniform (rectAttr vb) := by
  intro a
  unfold rectAttr
  split_ifs
  · exact uniform_resolve vb a .width fun (b : RectVars F) x => { b with x := x }
  · exact uniform_resolve vb a .height fun (b : RectVars F) x => { b with y := x }
  · exact uniform_resolve vb a .width fun (b : RectVars F) x => { b with w := x }
  · exact uniform_resolve vb a .height fun (b : RectVars F) x => { b with h := x }
  · exact uniform_resolve vb a .width fun (b : RectVars F) x => { b with rx := x }
  · exact uniform_resolve vb a .height fun (b : RectVars F) x => { b with ry := x }
  · exact .inl fun b => ⟨_, rfl⟩

theorem lineAttr_uniform (vb : Bounds F) : Uniform (lineAttr vb) := by
  intro a
  unfold lineAttr
  split_ifs
  · exact uniform_resolve vb a .width fun (b : LineVars F) x => { b with x1 := x }
  · exact uniform_resolve vb a .width fun (b : LineVars F) x => { b with x2 := x }
  · exact uniform_resolve vb a .height fun (b : LineVars F) x => { b with y1 := x }
  · exact uniform_resolve vb a .height fun (b : LineVars F) x => { b with y2 := x }
  · exact .inl fun b => ⟨_, rfl⟩

theorem circleAttr_uniform (vb : Bounds F) : Uniform (circleAttr vb) := by
  intro a
  unfold circleAttr
  split_ifs
  · exact uniform_resolve vb a .width fun (b : CircleVars F) x => { b with cx := x }
  · exact uniform_resolve vb a .height fun (b : CircleVars F) x => { b with cy := x }
  · exact uniform_resolve vb a .diag fun (b : CircleVars F) x => { b with rx := x, ry := x }
  · exact uniform_resolve vb a .width fun (b : CircleVars F) x => { b with rx := x }
  · exact uniform_resolve vb a .height fun (b : CircleVars F) x => { b with ry := x }
  · exact .inl fun b => ⟨_, rfl⟩

theorem maskAttr_uniform (vb : Bounds F) : Uniform (maskAttr vb) := by
  intro a
  unfold maskAttr
  split_ifs
  · exact .inr ⟨_, fun b => rfl⟩
  · exact .inl fun b => ⟨_, rfl⟩
  · exact uniform_resolve vb a .width fun (b : MaskVars F) x => { b with x := x }
  · exact uniform_resolve vb a .height fun (b : MaskVars F) x => { b with y := x }
  · exact uniform_resolve vb a .width fun (b : MaskVars F) x => { b with w := x }
  · exact uniform_resolve vb a .height fun (b : MaskVars F) x => { b with h := x }
  · exact .inl fun b => ⟨_, rfl⟩

/-- The same result, or an error in both cases with nothing changed. -/
def SameRun (c : Cursor F) (r r' : Res Unit × Cursor F) : Prop := r = r' ∨ ∃ e e', r = (.err e, c) ∧ r' = (.err e', c)

/-- An element whose function is a loop over the attributes followed by something that depends on the variables only. -/
theorem start_perm {β : Type} {fuel : Nat} {name : Str} {df : List Attr → CM F Unit} (hn : drawFuncs fuel (useF fuel) name = some df)
    {c : Cursor F} {st : PathStyle F} (hr : Ready c st) {step : β → Attr → Res β} {b : β} {fin : β → CM F Unit}
    (hdf : ∀ attrs, df attrs c = (do let v ← lift (Res.loop step b attrs); fin v : CM F Unit) c) (hu : Uniform step)
    {attrs attrs' : List Attr} (h : attrs.Perm attrs')
    (heq : ∀ v v', Res.loop step b attrs = .ok v → Res.loop step b attrs' = .ok v' → v = v') :
    SameRun c (readStartElement fuel name attrs c) (readStartElement fuel name attrs' c) := by
  unfold readStartElement
  simp only [hr.defs, Bool.false_eq_true, false_and, if_false, hn, hdf, SM.bind_run, SM.lift_run]
  rcases loop_perm hu h b with ⟨⟨v, hv⟩, v', hv'⟩ | ⟨⟨e, he⟩, e', he'⟩
  · have := heq v v' hv hv'
    subst this
    rw [hv, hv']
    exact .inl rfl
  · rw [he, he']
    right
    refine ⟨e, e', ?_, ?_⟩ <;> simp only [emitPath, hr.path]

/-- C57 for rectangles, any arithmetic. -/
theorem C57_rect {fuel : Nat} {c : Cursor F} {st : PathStyle F} (hr : Ready c st) {attrs attrs' : List Attr} (hd : Distinct attrs)
    (h : attrs.Perm attrs') :
    SameRun c (readStartElement fuel "rect".toList attrs c) (readStartElement fuel "rect".toList attrs' c) := by
  have hd' := distinct_perm h hd
  refine start_perm (df := rectF fuel) rfl hr (fun attrs => by unfold rectF; rw [SM.bind_run, SM.get_run]) (rectAttr_uniform _) h ?_
  intro v v' hv hv'
  have fields : ∀ {get : RectVars F → F} {n : String} {r : PercRef},
      (∀ b a b', rectAttr c.svg.viewBox b a = .ok b' → a.name = n.toList → resolveUnit c.svg.viewBox a.value r = .ok (get b')) →
      (∀ b a b', rectAttr c.svg.viewBox b a = .ok b' → ¬ a.name = n.toList → get b' = get b) → get v = get v' :=
    fun {get n r} h1 h2 => perm_field (p := (· = n.toList)) (val := fun a => resolveUnit c.svg.viewBox a.value r) h (distinct_pairwise hd _)
      (loop_field (· = n.toList) get (fun a => resolveUnit c.svg.viewBox a.value r) h1 h2 attrs (distinct_pairwise hd _) _ _ hv)
      (loop_field (· = n.toList) get (fun a => resolveUnit c.svg.viewBox a.value r) h1 h2 attrs' (distinct_pairwise hd' _) _ _ hv')
  have f1 : v.x = v'.x := fields (n := "x") (r := .width) (by shape_attr rectAttr) (by shape_attr rectAttr)
  have f2 : v.y = v'.y := fields (n := "y") (r := .height) (by shape_attr rectAttr) (by shape_attr rectAttr)
  have f3 : v.w = v'.w := fields (n := "width") (r := .width) (by shape_attr rectAttr) (by shape_attr rectAttr)
  have f4 : v.h = v'.h := fields (n := "height") (r := .height) (by shape_attr rectAttr) (by shape_attr rectAttr)
  have f5 : v.rx = v'.rx := fields (n := "rx") (r := .width) (by shape_attr rectAttr) (by shape_attr rectAttr)
  have f6 : v.ry = v'.ry := fields (n := "ry") (r := .height) (by shape_attr rectAttr) (by shape_attr rectAttr)
  cases v; cases v'
  simp_all

/-- C57 for lines, any arithmetic. -/
theorem C57_line {fuel : Nat} {c : Cursor F} {st : PathStyle F} (hr : Ready c st) {attrs attrs' : List Attr} (hd : Distinct attrs)
    (h : attrs.Perm attrs') :
    SameRun c (readStartElement fuel "line".toList attrs c) (readStartElement fuel "line".toList attrs' c) := by
  have hd' := distinct_perm h hd
  refine start_perm (df := lineF) rfl hr (fun attrs => by unfold lineF; rw [SM.bind_run, SM.get_run]) (lineAttr_uniform _) h ?_
  intro v v' hv hv'
  have fields : ∀ {get : LineVars F → F} {n : String} {r : PercRef},
      (∀ b a b', lineAttr c.svg.viewBox b a = .ok b' → a.name = n.toList → resolveUnit c.svg.viewBox a.value r = .ok (get b')) →
      (∀ b a b', lineAttr c.svg.viewBox b a = .ok b' → ¬ a.name = n.toList → get b' = get b) → get v = get v' :=
    fun {get n r} h1 h2 => perm_field (p := (· = n.toList)) (val := fun a => resolveUnit c.svg.viewBox a.value r) h (distinct_pairwise hd _)
      (loop_field (· = n.toList) get (fun a => resolveUnit c.svg.viewBox a.value r) h1 h2 attrs (distinct_pairwise hd _) _ _ hv)
      (loop_field (· = n.toList) get (fun a => resolveUnit c.svg.viewBox a.value r) h1 h2 attrs' (distinct_pairwise hd' _) _ _ hv')
  have f1 : v.x1 = v'.x1 := fields (n := "x1") (r := .width) (by shape_attr lineAttr) (by shape_attr lineAttr)
  have f2 : v.y1 = v'.y1 := fields (n := "y1") (r := .height) (by shape_attr lineAttr) (by shape_attr lineAttr)
  have f3 : v.x2 = v'.x2 := fields (n := "x2") (r := .width) (by shape_attr lineAttr) (by shape_attr lineAttr)
  have f4 : v.y2 = v'.y2 := fields (n := "y2") (r := .height) (by shape_attr lineAttr) (by shape_attr lineAttr)
  cases v; cases v'
  simp_all

/-- C57 for circles and ellipses, any arithmetic, when `r` is not given together with `rx` or `ry`. What is missing for the full
claim: such mixtures, for which it is false. -/
theorem C57_circle_partial {fuel : Nat} {name : Str} (hn : name = "circle".toList ∨ name = "ellipse".toList) {c : Cursor F}
    {st : PathStyle F} (hr : Ready c st) {attrs attrs' : List Attr} (hd : Distinct attrs) (h : attrs.Perm attrs')
    (hmix : (∀ v, ¬ Given attrs "r" v) ∨ ((∀ v, ¬ Given attrs "rx" v) ∧ ∀ v, ¬ Given attrs "ry" v)) :
    SameRun c (readStartElement fuel name attrs c) (readStartElement fuel name attrs' c) := by
  have hd' := distinct_perm h hd
  have hmix' : (∀ v, ¬ Given attrs' "r" v) ∨ ((∀ v, ¬ Given attrs' "rx" v) ∧ ∀ v, ¬ Given attrs' "ry" v) := by
    unfold Given at hmix ⊢
    simpa only [h.mem_iff] using hmix
  refine start_perm (drawFuncs_circle hn fuel _) hr (fun attrs => by unfold circleF; rw [SM.bind_run, SM.get_run])
    (circleAttr_uniform _) h ?_
  intro v v' hv hv'
  have fields : ∀ {get : CircleVars F → F} {n : String} {r : PercRef},
      (∀ b a b', circleAttr c.svg.viewBox b a = .ok b' → a.name = n.toList → resolveUnit c.svg.viewBox a.value r = .ok (get b')) →
      (∀ b a b', circleAttr c.svg.viewBox b a = .ok b' → ¬ a.name = n.toList → get b' = get b) → get v = get v' :=
    fun {get n r} h1 h2 => perm_field (p := (· = n.toList)) (val := fun a => resolveUnit c.svg.viewBox a.value r) h (distinct_pairwise hd _)
      (loop_field (· = n.toList) get (fun a => resolveUnit c.svg.viewBox a.value r) h1 h2 attrs (distinct_pairwise hd _) _ _ hv)
      (loop_field (· = n.toList) get (fun a => resolveUnit c.svg.viewBox a.value r) h1 h2 attrs' (distinct_pairwise hd' _) _ _ hv')
  have f1 : v.cx = v'.cx := fields (n := "cx") (r := .width) (by shape_attr circleAttr) (by shape_attr circleAttr)
  have f2 : v.cy = v'.cy := fields (n := "cy") (r := .height) (by shape_attr circleAttr) (by shape_attr circleAttr)
  have px := pairwise_r (n := "rx") hd (hmix.imp_right (·.1))
  have py := pairwise_r (n := "ry") hd (hmix.imp_right (·.2))
  have f3 : v.rx = v'.rx := perm_field (p := fun n => n = "r".toList ∨ n = "rx".toList) h px (circle_rx _ px hv)
    (circle_rx _ (pairwise_r (n := "rx") hd' (hmix'.imp_right (·.1))) hv')
  have f4 : v.ry = v'.ry := perm_field (p := fun n => n = "r".toList ∨ n = "ry".toList) h py (circle_ry _ py hv)
    (circle_ry _ (pairwise_r (n := "ry") hd' (hmix'.imp_right (·.2))) hv')
  cases v; cases v'
  simp_all

/-- C57 for masks, any arithmetic. -/
theorem C57_mask {fuel : Nat} {c : Cursor F} {st : PathStyle F} (hr : Ready c st) {attrs attrs' : List Attr} (hd : Distinct attrs)
    (h : attrs.Perm attrs') :
    SameRun c (readStartElement fuel "mask".toList attrs c) (readStartElement fuel "mask".toList attrs' c) := by
  have hd' := distinct_perm h hd
  refine start_perm (df := maskF) rfl hr (fun attrs => by unfold maskF; rw [SM.bind_run, SM.get_run]) (maskAttr_uniform _) h ?_
  intro v v' hv hv'
  have fields : ∀ {get : MaskVars F → F} {n : String} {r : PercRef},
      (∀ b a b', maskAttr c.svg.viewBox b a = .ok b' → a.name = n.toList → resolveUnit c.svg.viewBox a.value r = .ok (get b')) →
      (∀ b a b', maskAttr c.svg.viewBox b a = .ok b' → ¬ a.name = n.toList → get b' = get b) → get v = get v' :=
    fun {get n r} h1 h2 => perm_field (p := (· = n.toList)) (val := fun a => resolveUnit c.svg.viewBox a.value r) h (distinct_pairwise hd _)
      (loop_field (· = n.toList) get (fun a => resolveUnit c.svg.viewBox a.value r) h1 h2 attrs (distinct_pairwise hd _) _ _ hv)
      (loop_field (· = n.toList) get (fun a => resolveUnit c.svg.viewBox a.value r) h1 h2 attrs' (distinct_pairwise hd' _) _ _ hv')
  have f1 : v.x = v'.x := fields (n := "x") (r := .width) (by shape_attr maskAttr) (by shape_attr maskAttr)
  have f2 : v.y = v'.y := fields (n := "y") (r := .height) (by shape_attr maskAttr) (by shape_attr maskAttr)
  have f3 : v.w = v'.w := fields (n := "width") (r := .width) (by shape_attr maskAttr) (by shape_attr maskAttr)
  have f4 : v.h = v'.h := fields (n := "height") (r := .height) (by shape_attr maskAttr) (by shape_attr maskAttr)
  have i1 : ∀ b a b', maskAttr c.svg.viewBox b a = .ok b' → a.name = "id".toList → (Res.ok a.value : Res Str) = .ok b'.id := by
    intro b a b' h hn
    unfold maskAttr at h
    rw [if_pos hn] at h
    split_ifs at h
    cases h; rfl
  have i2 : ∀ b a b', maskAttr c.svg.viewBox b a = .ok b' → ¬ a.name = "id".toList → b'.id = b.id := by
    shape_attr maskAttr
  have f5 : v.id = v'.id := perm_field (p := (· = "id".toList)) (val := fun a => Res.ok a.value) h (distinct_pairwise hd _)
    (loop_field (· = "id".toList) MaskVars.id (fun a => .ok a.value) i1 i2 attrs (distinct_pairwise hd _) _ _ hv)
    (loop_field (· = "id".toList) MaskVars.id (fun a => .ok a.value) i1 i2 attrs' (distinct_pairwise hd' _) _ _ hv')
  cases v; cases v'
  simp_all

/-! ### C58 -/

theorem parseBasicFloat_cases (s : Str) : (∃ v : F, parseBasicFloat s = .ok v) ∨ (parseBasicFloat s : Res F) = .err .badFloat := by
  cases hp : (GoFloat.parse (findUnit s).2 : Option F) with
  | none => right; simp [parseBasicFloat, parseUnit, hp]
  | some v => left; simp [parseBasicFloat, parseUnit, hp]


/-- The attribute loop as a loop over local variables and cursor. -/
def pairStep {β : Type} (step : β → Attr → CM F β) (p : β × Cursor F) (a : Attr) : Res (β × Cursor F) :=
  match step p.1 a p.2 with
  | (.ok b, c) => .ok (b, c)
  | (.err e, _) => .err e
  | (.panic s, _) => .panic s
  | (.diverge, _) => .diverge

theorem attrLoop_pair {β : Type} (step : β → Attr → CM F β) : ∀ (attrs : List Attr) (b : β) (c : Cursor F),
    match Res.loop (pairStep step) (b, c) attrs with
    | .ok p => attrLoop step b attrs c = (.ok p.1, p.2)
    | .err e => (attrLoop step b attrs c).1 = .err e
    | .panic s => (attrLoop step b attrs c).1 = .panic s
    | .diverge => (attrLoop step b attrs c).1 = .diverge := by
  intro attrs
  induction attrs with
  | nil => intro b c; rfl
  | cons a as ih =>
    intro b c
    rw [Res.loop, attrLoop, SM.bind_run, pairStep]
    cases hs : step b a c with
    | mk r c1 =>
      cases r with
      | ok b1 => exact ih b1 c1
      | err e => rfl
      | panic e => rfl
      | diverge => rfl

theorem svgAttr_other {a : Attr} (h1 : a.name ≠ "viewBox".toList) (h2 : a.name ≠ "width".toList) (h3 : a.name ≠ "height".toList)
    (p : (F × F) × Cursor F) : pairStep svgAttr p a = .ok p := by
  have : svgAttr p.1 a = (pure p.1 : CM F (F × F)) := by unfold svgAttr; rw [if_neg h1, if_neg h2, if_neg h3]
  rw [pairStep, this]; rfl

theorem svgAttr_width {a : Attr} (h : a.name = "width".toList) (p : (F × F) × Cursor F) :
    pairStep svgAttr p a = (do
      let w ← parseBasicFloat a.value
      .ok ((w, p.1.2), { p.2 with svg := { p.2.svg with width := a.value } })) := by
  have : svgAttr p.1 a = (do
      modify fun c => { c with svg := { c.svg with width := a.value } }
      let w ← lift (parseBasicFloat a.value)
      pure (w, p.1.2) : CM F (F × F)) := by
    unfold svgAttr; rw [if_neg (by rw [h]; decide), if_pos h]
  rw [pairStep, this]
  simp only [SM.bind_run, SM.modify_run, SM.lift_run]
  cases (parseBasicFloat a.value : Res F) <;> rfl

theorem svgAttr_height {a : Attr} (h : a.name = "height".toList) (p : (F × F) × Cursor F) :
    pairStep svgAttr p a = (do
      let w ← parseBasicFloat a.value
      .ok ((p.1.1, w), { p.2 with svg := { p.2.svg with height := a.value } })) := by
  have : svgAttr p.1 a = (do
      modify fun c => { c with svg := { c.svg with height := a.value } }
      let w ← lift (parseBasicFloat a.value)
      pure (p.1.1, w) : CM F (F × F)) := by
    unfold svgAttr; rw [if_neg (by rw [h]; decide), if_neg (by rw [h]; decide), if_pos h]
  rw [pairStep, this]
  simp only [SM.bind_run, SM.modify_run, SM.lift_run]
  cases (parseBasicFloat a.value : Res F) <;> rfl

/-- The four numbers of a view box. -/
def readBox (v : Str) : Res (Bounds F) :=
  match getPoints v (initCursor .strict : Cursor F).pc with
  | (.ok (), pc) => match pc.points with
    | [x, y, w, h] => .ok ⟨x, y, w, h⟩
    | _ => .err .paramMismatch
  | (_, _) => .err .badFloat

theorem svgAttr_box {a : Attr} (h : a.name = "viewBox".toList) :
    (∃ (vb : Bounds F) (ps : List F), readBox a.value = .ok vb ∧ ∀ p, pairStep svgAttr p a =
      .ok (p.1, { p.2 with pc := { p.2.pc with points := ps }, svg := { p.2.svg with viewBox := vb } })) ∨
    (∃ e e', readBox (F := F) a.value = .err e ∧ ∀ p : (F × F) × Cursor F, pairStep svgAttr p a = .err e') := by
  obtain ⟨b, ps, hf⟩ := getPoints_frame (F := F) a.value
  have hs : ∀ p : (F × F) × Cursor F, svgAttr p.1 a = svgBox p.1 a.value := by intro p; unfold svgAttr; rw [if_pos h]
  rcases ps with _ | ⟨x, _ | ⟨y, _ | ⟨w, _ | ⟨h, _ | ⟨z, ps⟩⟩⟩⟩⟩
  case cons.cons.cons.cons.nil =>
    cases b
    · exact .inr ⟨.badFloat, .badFloat, by simp [readBox, hf], fun p => by rw [pairStep, hs]; simp [svgBox, hf]⟩
    · exact .inl ⟨⟨x, y, w, h⟩, [x, y, w, h], by simp [readBox, hf], fun p => by rw [pairStep, hs]; simp only [svgBox, hf, if_true]⟩
  all_goals
    cases b
    · exact .inr ⟨.badFloat, .paramMismatch, by simp [readBox, hf], fun p => by rw [pairStep, hs]; simp [svgBox, hf]⟩
    · exact .inr ⟨.paramMismatch, .paramMismatch, by simp [readBox, hf], fun p => by rw [pairStep, hs]; simp [svgBox, hf]⟩

theorem writes_readBox {v : Str} {vb : Bounds F} (h : WritesNumbers [vb.x, vb.y, vb.w, vb.h] v) : readBox v = .ok vb := by
  rw [readBox, writesNumbers_get h]

theorem svgAttr_uniform : Uniform (pairStep (F := F) svgAttr) := by
  intro a
  by_cases h1 : a.name = "viewBox".toList
  · rcases svgAttr_box (F := F) h1 with ⟨vb, ps, -, h⟩ | ⟨e, e', -, h⟩
    · exact .inl fun p => ⟨_, h p⟩
    · exact .inr ⟨e', h⟩
  · by_cases h2 : a.name = "width".toList
    · simp only [svgAttr_width h2]
      rcases parseBasicFloat_cases (F := F) a.value with ⟨w, hw⟩ | hw
      · exact .inl fun p => ⟨_, by rw [hw]; rfl⟩
      · exact .inr ⟨_, fun p => by rw [hw]; rfl⟩
    · by_cases h3 : a.name = "height".toList
      · simp only [svgAttr_height h3]
        rcases parseBasicFloat_cases (F := F) a.value with ⟨w, hw⟩ | hw
        · exact .inl fun p => ⟨_, by rw [hw]; rfl⟩
        · exact .inr ⟨_, fun p => by rw [hw]; rfl⟩
      · exact .inl fun p => ⟨_, svgAttr_other h1 h2 h3 p⟩

theorem svgAttr_inv {p p' : (F × F) × Cursor F} {a : Attr} (h : pairStep svgAttr p a = .ok p') :
    (a.name = "viewBox".toList ∧ ∃ (vb : Bounds F) (ps : List F), readBox a.value = .ok vb ∧
      p' = (p.1, { p.2 with pc := { p.2.pc with points := ps }, svg := { p.2.svg with viewBox := vb } })) ∨
    (a.name = "width".toList ∧ ∃ w, parseBasicFloat a.value = .ok w ∧
      p' = ((w, p.1.2), { p.2 with svg := { p.2.svg with width := a.value } })) ∨
    (a.name = "height".toList ∧ ∃ w, parseBasicFloat a.value = .ok w ∧
      p' = ((p.1.1, w), { p.2 with svg := { p.2.svg with height := a.value } })) ∨
    (a.name ≠ "viewBox".toList ∧ a.name ≠ "width".toList ∧ a.name ≠ "height".toList ∧ p' = p) := by
  by_cases h1 : a.name = "viewBox".toList
  · rcases svgAttr_box (F := F) h1 with ⟨vb, ps, hb, hp⟩ | ⟨e, e', -, hp⟩
    · rw [hp, Res.ok.injEq] at h
      exact .inl ⟨h1, vb, ps, hb, h.symm⟩
    · rw [hp] at h; cases h
  · by_cases h2 : a.name = "width".toList
    · rw [svgAttr_width h2] at h
      obtain ⟨x, hx, hb⟩ := res_inv h
      exact .inr (.inl ⟨h2, x, hx, hb⟩)
    · by_cases h3 : a.name = "height".toList
      · rw [svgAttr_height h3] at h
        obtain ⟨x, hx, hb⟩ := res_inv h
        exact .inr (.inr (.inl ⟨h3, x, hx, hb⟩))
      · rw [svgAttr_other h1 h2 h3, Res.ok.injEq] at h
        exact .inr (.inr (.inr ⟨h1, h2, h3, h.symm⟩))

macro "svg_attr" : tactic => `(tactic| (
  intro b a b' h hn
  rcases svgAttr_inv h with ⟨h1, vb, ps, hr, e⟩ | ⟨h1, w, hr, e⟩ | ⟨h1, w, hr, e⟩ | ⟨h1, h2, h3, e⟩ <;> subst e <;>
    first
    | exact hr
    | rfl
    | exact absurd h1 hn
    | exact absurd hn h1
    | exact absurd hn h2
    | exact absurd hn h3
    | exact absurd (h1.symm.trans hn) (by decide)))

/-- C58, any arithmetic. -/
theorem C58_view_box {fuel : Nat} {attrs : List Attr} (hd : Distinct attrs) {c : Cursor F} (hdefs : c.inDefs = false) (hp : c.pc.path = [])
    {vb : Bounds F} (hvb : BoxAttr attrs vb) {W H : F} (hW : NumAttr attrs "width" W) (hH : NumAttr attrs "height" H) :
    (readStartElement fuel "svg".toList attrs c).1 = .ok () ∧
      (readStartElement fuel "svg".toList attrs c).2.svg.svgPaths = c.svg.svgPaths ∧
      (readStartElement fuel "svg".toList attrs c).2.svg.viewBox =
        ⟨vb.x, vb.y, if GoFloat.eq vb.w (num 0) then W else vb.w, if GoFloat.eq vb.h (num 0) then H else vb.h⟩ := by
  have num_of : ∀ {n : String} {X : F}, NumAttr attrs n X → ∀ a ∈ attrs, a.name = n.toList → parseBasicFloat a.value = .ok X := by
    intro n X hX a ha hn
    rcases hX with ⟨v, h1, h2⟩ | ⟨h1, -⟩
    · rw [distinct_unique hd ha h1 hn]; exact h2
    · exact absurd (by rw [Given, ← hn]; exact ha) (h1 a.value)
  have box_of : ∀ a ∈ attrs, a.name = "viewBox".toList → readBox a.value = .ok vb := by
    intro a ha hn
    rcases hvb with ⟨v, h1, h2⟩ | ⟨h1, -⟩
    · rw [distinct_unique hd ha h1 hn]; exact writes_readBox h2
    · exact absurd (by rw [Given, ← hn]; exact ha) (h1 a.value)
  obtain ⟨c0, hc0⟩ : ∃ c0, c0 = { c with svg := { c.svg with viewBox := ⟨num 0, num 0, num 0, num 0⟩ } } := ⟨_, rfl⟩
  obtain ⟨⟨⟨w, h⟩, c1⟩, hl⟩ := loop_total (step := pairStep (F := F) svgAttr) attrs (by
    intro a ha p
    by_cases h1 : a.name = "viewBox".toList
    · rcases svgAttr_box (F := F) h1 with ⟨vb, ps, -, h⟩ | ⟨e, e', h, -⟩
      · exact ⟨_, h p⟩
      · rw [box_of a ha h1] at h; cases h
    · by_cases h2 : a.name = "width".toList
      · rw [svgAttr_width h2, num_of hW a ha h2]; exact ⟨_, rfl⟩
      · by_cases h3 : a.name = "height".toList
        · rw [svgAttr_height h3, num_of hH a ha h3]; exact ⟨_, rfl⟩
        · exact ⟨_, svgAttr_other h1 h2 h3 p⟩) ((num 0, num 0), c0)
  have keep : ∀ {γ : Type} (get : (F × F) × Cursor F → γ), (∀ b a b', pairStep svgAttr b a = .ok b' → ¬ False → get b' = get b) →
      get ((w, h), c1) = get ((num 0, num 0), c0) := by
    intro γ get hg
    rcases loop_field (fun _ => False) get (fun a => .err .badFloat) (step := pairStep svgAttr) (fun _ _ _ _ hf => hf.elim) hg attrs
      (List.Pairwise.imp (R := fun _ _ => True) (fun _ hf => hf.1) (by simp [List.pairwise_iff_getElem])) _ _ hl with ⟨a, ha, hf, -⟩ | ⟨-, h⟩
    · exact hf.elim
    · exact h
  have hw := loop_field (· = "width".toList) (fun p : (F × F) × Cursor F => p.1.1) (fun a => parseBasicFloat a.value)
    (step := pairStep svgAttr) (by svg_attr) (by svg_attr) attrs (distinct_pairwise hd _) _ _ hl
  have hh := loop_field (· = "height".toList) (fun p : (F × F) × Cursor F => p.1.2) (fun a => parseBasicFloat a.value)
    (step := pairStep svgAttr) (by svg_attr) (by svg_attr) attrs (distinct_pairwise hd _) _ _ hl
  have hb := loop_field (· = "viewBox".toList) (fun p : (F × F) × Cursor F => p.2.svg.viewBox) (fun a => readBox a.value)
    (step := pairStep svgAttr) (by svg_attr) (by svg_attr) attrs (distinct_pairwise hd _) _ _ hl
  have kp : c1.svg.svgPaths = c.svg.svgPaths := by
    rw [show c.svg.svgPaths = c0.svg.svgPaths by rw [hc0]]
    exact keep (fun p => p.2.svg.svgPaths) (by svg_attr)
  have kq : c1.pc.path = [] := by
    rw [← hp, show c.pc.path = c0.pc.path by rw [hc0]]
    exact keep (fun p => p.2.pc.path) (by svg_attr)
  have ew : w = W := by
    rcases hw with ⟨a, ha, hn, hv⟩ | ⟨h1, h2⟩
    · rw [num_of hW a ha hn] at hv; exact (Res.ok.inj hv).symm
    · rcases hW with ⟨v, g1, -⟩ | ⟨-, g2⟩
      · exact absurd rfl (h1 _ g1)
      · exact h2.trans g2.symm
  have eh : h = H := by
    rcases hh with ⟨a, ha, hn, hv⟩ | ⟨h1, h2⟩
    · rw [num_of hH a ha hn] at hv; exact (Res.ok.inj hv).symm
    · rcases hH with ⟨v, g1, -⟩ | ⟨-, g2⟩
      · exact absurd rfl (h1 _ g1)
      · exact h2.trans g2.symm
  have eb : c1.svg.viewBox = vb := by
    rcases hb with ⟨a, ha, hn, hv⟩ | ⟨h1, h2⟩
    · rw [box_of a ha hn] at hv; exact (Res.ok.inj hv).symm
    · rcases hvb with ⟨v, g1, -⟩ | ⟨-, g2⟩
      · exact absurd rfl (h1 _ g1)
      · rw [hc0] at h2; exact h2.trans g2.symm
  have hs : attrLoop svgAttr (num 0, num 0) attrs c0 = (.ok (w, h), c1) := by
    have := attrLoop_pair (F := F) svgAttr attrs (num 0, num 0) c0
    rw [hl] at this
    exact this
  have hf : svgF attrs c = (.ok (), { c1 with svg := { c1.svg with viewBox :=
      ⟨vb.x, vb.y, if GoFloat.eq vb.w (num 0) then W else vb.w, if GoFloat.eq vb.h (num 0) then H else vb.h⟩ } }) := by
    unfold svgF
    rw [SM.bind_run, SM.modify_run]
    simp only [SM.bind_run]
    rw [← hc0, hs]
    simp only [SM.modify_run, ew, eh, eb]
    split_ifs <;> simp_all
  have hdf : drawFuncs fuel (useF fuel) "svg".toList = some (svgF (F := F)) := rfl
  unfold readStartElement
  simp only [hdefs, Bool.false_eq_true, false_and, if_false, hdf, hf, emitPath, kq]
  exact ⟨trivial, kp, trivial⟩

theorem svgAttr_path (wh : F × F) (a : Attr) (c : Cursor F) : (svgAttr wh a c).2.pc.path = c.pc.path := by
  by_cases h1 : a.name = "viewBox".toList
  · obtain ⟨b, ps, hf⟩ := getPoints_frame (F := F) a.value
    rw [show svgAttr wh a = svgBox wh a.value by unfold svgAttr; rw [if_pos h1]]
    simp only [svgBox, hf]
    split
    · split <;> rfl
    · rfl
  · by_cases h2 : a.name = "width".toList
    · rw [show svgAttr wh a = (do
          modify fun c => { c with svg := { c.svg with width := a.value } }
          let w ← lift (parseBasicFloat a.value)
          pure (w, wh.2) : CM F (F × F)) by unfold svgAttr; rw [if_neg h1, if_pos h2]]
      simp only [SM.bind_run, SM.modify_run, SM.lift_run]
      cases (parseBasicFloat a.value : Res F) <;> rfl
    · by_cases h3 : a.name = "height".toList
      · rw [show svgAttr wh a = (do
            modify fun c => { c with svg := { c.svg with height := a.value } }
            let w ← lift (parseBasicFloat a.value)
            pure (wh.1, w) : CM F (F × F)) by unfold svgAttr; rw [if_neg h1, if_neg h2, if_pos h3]]
        simp only [SM.bind_run, SM.modify_run, SM.lift_run]
        cases (parseBasicFloat a.value : Res F) <;> rfl
      · rw [show svgAttr wh a = (pure wh : CM F (F × F)) by unfold svgAttr; rw [if_neg h1, if_neg h2, if_neg h3]]
        rfl

theorem svgLoop_path : ∀ (attrs : List Attr) (wh : F × F) (c : Cursor F), (attrLoop svgAttr wh attrs c).2.pc.path = c.pc.path := by
  intro attrs
  induction attrs with
  | nil => intro wh c; rfl
  | cons a as ih =>
    intro wh c
    have h := svgAttr_path wh a c
    rw [attrLoop, SM.bind_run]
    cases hs : svgAttr wh a c with
    | mk r c1 =>
      rw [hs] at h
      cases r with
      | ok b => exact (ih b c1).trans h
      | err e => exact h
      | panic e => exact h
      | diverge => exact h

/-- C58, any arithmetic: a view box that does not consist of four numbers is an error. -/
theorem C58_four_numbers {fuel : Nat} {attrs : List Attr} {c : Cursor F} {st : PathStyle F} (hr : Ready c st) {l : GroupList} (hl : l.WF)
    (hg : Given attrs "viewBox" l.text) (h4 : ∀ vs : List F, readAll (l.numbers.map Spelling.text) = some vs → vs.length ≠ 4) :
    ∃ e, (readStartElement fuel "svg".toList attrs c).1 = .err e := by
  have hb : ∃ e', ∀ p : (F × F) × Cursor F, pairStep svgAttr p ⟨"viewBox".toList, l.text⟩ = .err e' := by
    rcases svgAttr_box (F := F) (a := ⟨"viewBox".toList, l.text⟩) rfl with ⟨vb, ps, h, -⟩ | ⟨e, e', -, h⟩
    · exfalso
      dsimp only at h
      unfold readBox at h
      cases hra : readAll (F := F) (l.numbers.map Spelling.text) with
      | none =>
        obtain ⟨qs, hq⟩ := (groups_read l hl (initCursor .strict : Cursor F).pc).2 hra
        rw [hq] at h; cases h
      | some vs =>
        have hq := (groups_read l hl (initCursor .strict : Cursor F).pc).1 vs hra
        have := h4 vs hra
        rw [hq] at h
        rcases vs with _ | ⟨x, _ | ⟨y, _ | ⟨w, _ | ⟨h, _ | ⟨z, ps⟩⟩⟩⟩⟩ <;> simp at h this
    · exact ⟨e', h⟩
  obtain ⟨e', he'⟩ := hb
  obtain ⟨c0, hc0⟩ : ∃ c0, c0 = { c with svg := { c.svg with viewBox := ⟨num 0, num 0, num 0, num 0⟩ } } := ⟨_, rfl⟩
  have hloop : ∃ e, Res.loop (pairStep svgAttr) ((num 0, num 0), c0) attrs = .err e := by
    rcases loop_uniform svgAttr_uniform attrs ((num 0, num 0), c0) with ⟨h, -⟩ | ⟨-, h⟩
    · obtain ⟨b', hb'⟩ := h _ hg ((num 0, num 0), c0)
      rw [he'] at hb'; cases hb'
    · exact h
  obtain ⟨e, he⟩ := hloop
  have hs : (attrLoop svgAttr (num 0, num 0) attrs c0).1 = .err e := by
    have := attrLoop_pair (F := F) svgAttr attrs (num 0, num 0) c0
    rw [he] at this
    exact this
  obtain ⟨c1, hc1⟩ : ∃ c1, attrLoop svgAttr (num 0, num 0) attrs c0 = (.err e, c1) := ⟨_, Prod.ext hs rfl⟩
  have hf : svgF attrs c = (.err e, c1) := by
    unfold svgF
    rw [SM.bind_run, SM.modify_run]
    simp only [SM.bind_run]
    rw [← hc0, hc1]
  have hdf : drawFuncs fuel (useF fuel) "svg".toList = some (svgF (F := F)) := rfl
  unfold readStartElement
  simp only [hr.defs, Bool.false_eq_true, false_and, if_false, hdf, hf]
  have hp : c1.pc.path = [] := by
    have := svgLoop_path attrs (num 0, num 0) c0
    rw [hc1, hc0] at this
    exact this.trans hr.path
  simp only [emitPath, hp]
  exact ⟨e, rfl⟩

end GoSvg

namespace GoSvg

open Spec

section Examples

attribute [local instance] asciiEnv
attribute [local instance] dummyLibm

set_option maxRecDepth 100000 in
/-- C57 fails for a circle with both kinds of radii: `<circle r="8" rx="16"/>` and `<circle rx="16" r="8"/>` differ. -/
theorem C57_circle_false : pathsOf .strict (elem "svg" [] (elem "circle" [("r", "8"), ("rx", "16")])) ≠
    pathsOf .strict (elem "svg" [] (elem "circle" [("rx", "16"), ("r", "8")])) := by
  decide +kernel

/-- C57: two orders of the attributes of a rectangle, and of an ellipse. -/
example (c : Cursor F64) (hr : Ready c defaultStyle) : SameRun c
    (readStartElement 0 "rect".toList (attrsOf [("x", "1"), ("width", "2"), ("fill", "red"), ("height", "3")]) c)
    (readStartElement 0 "rect".toList (attrsOf [("height", "3"), ("x", "1"), ("fill", "red"), ("width", "2")]) c) :=
  C57_rect hr (by decide) (by decide)

example (c : Cursor F64) (hr : Ready c defaultStyle) : SameRun c
    (readStartElement 0 "ellipse".toList (attrsOf [("rx", "1"), ("ry", "2"), ("cx", "x")]) c)
    (readStartElement 0 "ellipse".toList (attrsOf [("cx", "x"), ("ry", "2"), ("rx", "1")]) c) :=
  C57_circle_partial (.inr rfl) hr (by decide) (by decide) (.inl (not_given (by decide)))

/-- C58: `viewBox="1 2 0 4" height="7" width="6"`. -/
example : (readStartElement 0 "svg".toList (attrsOf [("viewBox", "1 2 0 4"), ("height", "7"), ("width", "6")])
    (initCursor (F := F64) .strict)).2.svg.viewBox = ⟨num 1, num 2, num 6, num 4⟩ := by
  have := (C58_view_box (F := F64) (fuel := 0) (attrs := attrsOf [("viewBox", "1 2 0 4"), ("height", "7"), ("width", "6")]) (by decide)
    (c := initCursor .strict) rfl rfl (vb := ⟨num 1, num 2, num 0, num 4⟩) (W := num 6) (H := num 7)
    (.inl ⟨"1 2 0 4".toList, by decide, ⟨[int "" "1", int " " "2", int " " "0", int " " "4"], []⟩, [num 1, num 2, num 0, num 4],
      by decide +kernel, by decide +kernel, by decide +kernel, by decide +kernel⟩)
    (.inl ⟨"6".toList, by decide, by decide +kernel⟩) (.inl ⟨"7".toList, by decide, by decide +kernel⟩)).2.2
  rw [this]
  decide +kernel

/-- C58: `viewBox="1 2 3"`. -/
example : ∃ e, (readStartElement 0 "svg".toList (attrsOf [("width", "6"), ("viewBox", "1 2 3")])
    (initCursor (F := F64) .strict)).1 = .err e :=
  C58_four_numbers (F := F64) (ready_init .strict) (l := ⟨[int "" "1", int " " "2", int " " "3"], []⟩) (by decide +kernel) (by decide +kernel)
    (by
      intro vs h
      rw [show readAll (F := F64) _ = some [num 1, num 2, num 3] by decide +kernel, Option.some.injEq] at h
      subst h
      decide)

end Examples

end GoSvg
