import Verif.Lemmas.Gradients

/-! Gradients and stops whose attributes can be read are read. -/

set_option linter.unusedSectionVars false

namespace GoSvg

open Spec

variable {F : Type} [GoFloat F] [GoEnv]

open SM (get modify throw lift panic diverge forEach)

theorem lift_bind_ok {α β : Type} {m : Res α} {a : α} (h : m = .ok a) (f : α → CM F β) (c : Cursor F) : (lift m >>= f) c = f a c := by
  rw [SM.bind_run, SM.lift_run, h]

theorem valuesNamed_tail {n : String} {a : Attr} {as : List Attr} {v : Str} (h : v ∈ valuesNamed n as) : v ∈ valuesNamed n (a :: as) := by
  unfold valuesNamed at h ⊢
  rw [List.filter_cons]
  split
  · exact List.mem_cons_of_mem _ h
  · exact h

theorem valuesNamed_head {n : String} {a : Attr} {as : List Attr} (h : a.name = n.toList) : a.value ∈ valuesNamed n (a :: as) := by
  unfold valuesNamed
  rw [List.filter_cons_of_pos (by rw [h]; exact decide_eq_true rfl)]
  exact List.mem_cons_self

/-- Values that can be read as transforms here. -/
def TransformsRead (S : List (PathStyle F)) (attrs : List Attr) : Prop :=
  ∀ v ∈ valuesNamed "gradientTransform" attrs, ∀ c : Cursor F, c.styleStack = S → ∃ m, (parseTransform v c).1 = .ok m

theorem transformsRead_cons {S : List (PathStyle F)} {a : Attr} {as : List Attr} (h : TransformsRead S (a :: as)) : TransformsRead S as := by
  intro v hv
  refine h v ?_
  unfold valuesNamed at hv ⊢
  rw [List.filter_cons]
  split
  · exact List.mem_cons_of_mem _ hv
  · exact hv

/-- A state in which the attributes of a gradient are read. -/
structure GradBusy (S : List (PathStyle F)) (c : Cursor F) : Prop where
  stack : c.styleStack = S
  grad : ∃ i, c.grad = some i

theorem gradBusy_body {S : List (PathStyle F)} {c c' : Cursor F} (h : GradBusy S c) (hb : GradBodyR c c') : GradBusy S c' := by
  have h1 : c'.styleStack = c.styleStack := by rw [hb.eq]
  have h2 : c'.grad = c.grad := by rw [hb.eq]
  exact ⟨h1.trans h.stack, by rw [h2]; exact h.grad⟩

theorem modifyGrad_total {c : Cursor F} (h : ∃ i, c.grad = some i) (f : Gradient F → Gradient F) : (modifyGrad f c).1 = .ok () := by
  obtain ⟨i, h⟩ := h
  unfold modifyGrad; rw [h]

theorem readGradAttr_total {S : List (PathStyle F)} {c : Cursor F} (h : GradBusy S c) {a : Attr} {as : List Attr} (ht : TransformsRead S (a :: as)) :
    (readGradAttr a c).1 = .ok () := by
  unfold readGradAttr
  split
  · rename_i hn
    obtain ⟨m, hm⟩ := ht a.value (valuesNamed_head hn) c h.stack
    rw [SM.bind_run]
    have hb := parseTransform_body a.value c
    rcases hr : parseTransform a.value c with ⟨r, c1⟩
    rw [hr] at hm hb
    dsimp only at hm
    subst hm
    exact modifyGrad_total (gradBusy_body h hb).grad _
  · split
    · dsimp only
      split
      · exact modifyGrad_total h.grad _
      · split
        · exact modifyGrad_total h.grad _
        · rfl
    · split
      · dsimp only
        split
        · exact modifyGrad_total h.grad _
        · split
          · exact modifyGrad_total h.grad _
          · split
            · exact modifyGrad_total h.grad _
            · rfl
      · rfl

theorem then_total {α β : Type} {m : CM F α} {c : Cursor F} {a : α} (h : (m c).1 = .ok a) {f : α → CM F β} {b : β} (hf : ∀ c, (f a c).1 = .ok b) :
    ((m >>= f) c).1 = .ok b := by
  rw [SM.bind_run]
  rcases hr : m c with ⟨r, c1⟩
  rw [hr] at h
  dsimp only at h
  subst h
  exact hf c1

theorem setGradID_total {c : Cursor F} (h : ∃ i, c.grad = some i) (id : Str) : (setGradID id c).1 = .ok () := by
  obtain ⟨i, h⟩ := h
  unfold setGradID; rw [h]

theorem linAttr_total {S : List (PathStyle F)} {c : Cursor F} (h : GradBusy S c) {a : Attr} {as : List Attr} (ht : TransformsRead S (a :: as)) (d : LinStrs) :
    ∃ d', (linAttr d a c).1 = .ok d' := by
  unfold linAttr
  split
  · exact ⟨d, then_total (setGradID_total h.grad _) fun _ => rfl⟩
  repeat' (split; · exact ⟨_, rfl⟩)
  exact ⟨d, then_total (readGradAttr_total h ht) fun _ => rfl⟩

theorem radAttr_total {S : List (PathStyle F)} {c : Cursor F} (h : GradBusy S c) {a : Attr} {as : List Attr} (ht : TransformsRead S (a :: as)) (d : RadStrs) :
    ∃ d', (radAttr d a c).1 = .ok d' := by
  unfold radAttr
  split
  · exact ⟨d, then_total (setGradID_total h.grad _) fun _ => rfl⟩
  repeat' (split; · exact ⟨_, rfl⟩)
  exact ⟨d, then_total (readGradAttr_total h ht) fun _ => rfl⟩

theorem attrLoop_total {β : Type} {step : β → Attr → CM F β} {S : List (PathStyle F)} (hk : ∀ b a, Keeps GradBodyR (step b a))
    (ht : ∀ (c : Cursor F) a as b, GradBusy S c → TransformsRead S (a :: as) → ∃ b', (step b a c).1 = .ok b') :
    ∀ (as : List Attr) (b : β) (c : Cursor F), GradBusy S c → TransformsRead S as → ∃ b' c', attrLoop step b as c = (.ok b', c')
  | [], b, c, _, _ => ⟨b, c, rfl⟩
  | a :: as, b, c, h, hr => by
    obtain ⟨b1, h1⟩ := ht c a as b h hr
    have hb := hk b a c
    rcases hx : step b a c with ⟨r, c1⟩
    rw [hx] at h1 hb
    dsimp only at h1
    subst h1
    obtain ⟨b', c', h2⟩ := attrLoop_total hk ht as b1 c1 (gradBusy_body h hb) (transformsRead_cons hr)
    exact ⟨b', c', by rw [attrLoop, SM.bind_run, hx]; exact h2⟩

/-- What the start tag of a gradient leaves. -/
structure GradLeft (attrs : List Attr) (d : Direction F) (c c' : Cursor F) : Prop where
  body : GradBodyR (withNewGrad c) c'
  grad : c'.grad = some c.svg.gradHeap.length
  heap : ∃ m, c'.svg.gradHeap = c.svg.gradHeap ++ [⟨some d, [], c.svg.viewBox, m, spreadOf attrs, unitsOf attrs⟩] ∧
    MatrixRead (topTransform c) (valuesNamed "gradientTransform" attrs) m
  names : ∀ id, c'.svg.grads.find id = if id ∈ valuesNamed "id" attrs then some c.svg.gradHeap.length else c.svg.grads.find id

theorem linearGradientF_total {attrs : List Attr} {c : Cursor F} {d : Direction F} (ht : TransformsRead c.styleStack attrs)
    (h : DirectionOf (percentBox (unitsOf attrs) c.svg.viewBox) attrs "linearGradient".toList d) :
    ∃ c', linearGradientF attrs c = (.ok (), c') ∧ GradLeft attrs d c c' := by
  have hbody : GradBodyR (withNewGrad c) (linearGradientF attrs c).2 := grad_start (fuel := 0) (use := useF 0) (tag := "linearGradient".toList) rfl (.inl rfl) attrs c
  generalize hN : "linearGradient".toList = N at h
  cases h with
  | radial => exact absurd hN (by decide)
  | @linear x1 y1 x2 y2 q1 q2 q3 q4 =>
    obtain ⟨d', c1, h1⟩ := attrLoop_total (S := c.styleStack) linAttr_body (fun c a as b hb ht => linAttr_total hb ht b) attrs
      ⟨"0%".toList, "0%".toList, "100%".toList, "0".toList⟩ (withNewGrad c) ⟨rfl, _, rfl⟩ ht
    obtain ⟨hg, hl⟩ := attrLoop_inv (P := fun done d c1 => GradRead c.svg.gradHeap c.svg.grads c.svg.viewBox done c1 ∧ LinRead done d)
      linAttr_read attrs [] _ _ _ _ ⟨gradRead_new c, ⟨rfl, rfl, rfl, rfl⟩⟩ h1
    rw [List.nil_append] at hg hl
    obtain ⟨hgr, ⟨g, e1, e2, e3, e4, e5, e6, e7⟩, hn⟩ := hg
    have run : linearGradientF attrs c = (.ok (), { c1 with svg := { c1.svg with gradHeap := c.svg.gradHeap ++ [{ g with direction := some (.linear x1 y1 x2 y2) }] } }) := by
      unfold linearGradientF
      rw [SM.bind_run, newGrad_run]
      dsimp only
      rw [SM.bind_run, h1]
      dsimp only
      rw [SM.bind_run, currentGrad_last hgr e1]
      dsimp only
      rw [gradBox_eq, e5, e4, hl.x1, hl.y1, hl.x2, hl.y2, lift_bind_ok q1, lift_bind_ok q2, lift_bind_ok q3, lift_bind_ok q4, modifyGrad_last hgr e1]
      simp only [e4, e5]
    rw [run] at hbody
    refine ⟨_, run, hbody, hgr, ⟨g.matrix, ?_, ?_⟩, hn⟩
    · dsimp only; rw [e3, e4, e5, e6]
    · have : topTransform c1 = topTransform c := by
        have hs : c1.styleStack = c.styleStack := by have := congrArg Cursor.styleStack hbody.eq; exact this
        unfold topTransform; rw [hs]
      rw [← this]; exact e7

theorem radialGradientF_total {attrs : List Attr} {c : Cursor F} {d : Direction F} (ht : TransformsRead c.styleStack attrs)
    (h : DirectionOf (percentBox (unitsOf attrs) c.svg.viewBox) attrs "radialGradient".toList d) :
    ∃ c', radialGradientF attrs c = (.ok (), c') ∧ GradLeft attrs d c c' := by
  have hbody : GradBodyR (withNewGrad c) (radialGradientF attrs c).2 := grad_start (fuel := 0) (use := useF 0) (tag := "radialGradient".toList) rfl (.inr rfl) attrs c
  generalize hN : "radialGradient".toList = N at h
  cases h with
  | linear => exact absurd hN (by decide)
  | @radial cx cy fx fy r fr q1 q2 q3 q4 q5 q6 =>
    obtain ⟨d', c1, h1⟩ := attrLoop_total (S := c.styleStack) radAttr_body (fun c a as b hb ht => radAttr_total hb ht b) attrs
      ⟨false, false, fifty, fifty, fifty, fifty, fifty, fifty⟩ (withNewGrad c) ⟨rfl, _, rfl⟩ ht
    obtain ⟨hg, hl⟩ := attrLoop_inv (P := fun done d c1 => GradRead c.svg.gradHeap c.svg.grads c.svg.viewBox done c1 ∧ RadRead done d)
      radAttr_read attrs [] _ _ _ _ ⟨gradRead_new c, ⟨rfl, rfl, rfl, rfl, rfl, rfl⟩⟩ h1
    rw [List.nil_append] at hg hl
    obtain ⟨hgr, ⟨g, e1, e2, e3, e4, e5, e6, e7⟩, hn⟩ := hg
    have hfx : (if d'.setFx then d'.fx else d'.cx) = ((valuesNamed "fx" attrs).getLast?.getD ((valuesNamed "cx" attrs).getLast?.getD "50%".toList)) := by
      rw [← hl.fx, ← hl.cx]; split <;> rfl
    have hfy : (if d'.setFy then d'.fy else d'.cy) = ((valuesNamed "fy" attrs).getLast?.getD ((valuesNamed "cy" attrs).getLast?.getD "50%".toList)) := by
      rw [← hl.fy, ← hl.cy]; split <;> rfl
    have run : radialGradientF attrs c =
        (.ok (), { c1 with svg := { c1.svg with gradHeap := c.svg.gradHeap ++ [{ g with direction := some (.radial cx cy fx fy r fr) }] } }) := by
      unfold radialGradientF
      rw [SM.bind_run, newGrad_run]
      dsimp only
      rw [SM.bind_run, h1]
      dsimp only
      rw [SM.bind_run, currentGrad_last hgr e1]
      dsimp only
      rw [gradBox_eq, e5, e4, hl.cx, hl.cy, hl.r, hl.fr, lift_bind_ok q1, lift_bind_ok q2]
      rw [hl.cx] at hfx
      rw [hl.cy] at hfy
      rw [hfx, hfy, lift_bind_ok q3, lift_bind_ok q4, lift_bind_ok q5, lift_bind_ok q6, modifyGrad_last hgr e1]
      simp only [e4, e5]
    rw [run] at hbody
    refine ⟨_, run, hbody, hgr, ⟨g.matrix, ?_, ?_⟩, hn⟩
    · dsimp only; rw [e3, e4, e5, e6]
    · have : topTransform c1 = topTransform c := by
        have hs : c1.styleStack = c.styleStack := by have := congrArg Cursor.styleStack hbody.eq; exact this
        unfold topTransform; rw [hs]
      rw [← this]; exact e7

/-! ### Stops -/

/-- The attributes of a stop that can be read. -/
structure StopReads (F : Type) [GoFloat F] (attrs : List Attr) : Prop where
  offset : ∀ v ∈ valuesNamed "offset" attrs, ∃ x : F, readFraction v = .ok x
  opacity : ∀ v ∈ valuesNamed "stop-opacity" attrs, ∃ x : F, parseBasicFloat v = .ok x
  color : ∀ v ∈ valuesNamed "stop-color" attrs, ∃ x, parseSVGColor v = .ok x

theorem stopLoop_total : ∀ (attrs : List Attr) (s : GradStop F), StopReads F attrs → ∃ s', Res.loop stopAttr s attrs = .ok s'
  | [], s, _ => ⟨s, rfl⟩
  | a :: as, s, h => by
    obtain ⟨s1, h1⟩ : ∃ s1, stopAttr s a = .ok s1 := by
      unfold stopAttr
      split
      · rename_i hn
        obtain ⟨x, hx⟩ := h.offset _ (valuesNamed_head hn)
        exact ⟨_, by rw [hx]; rfl⟩
      · split
        · rename_i hn
          obtain ⟨x, hx⟩ := h.color _ (valuesNamed_head hn)
          exact ⟨_, by rw [hx]; rfl⟩
        · split
          · rename_i hn
            obtain ⟨x, hx⟩ := h.opacity _ (valuesNamed_head hn)
            exact ⟨_, by rw [hx]; rfl⟩
          · exact ⟨_, rfl⟩
    obtain ⟨s2, h2⟩ := stopLoop_total as s1 ⟨fun v hv => h.offset v (valuesNamed_tail hv), fun v hv => h.opacity v (valuesNamed_tail hv),
      fun v hv => h.color v (valuesNamed_tail hv)⟩
    exact ⟨s2, by rw [Res.loop, h1]; exact h2⟩

theorem stopF_total {attrs : List Attr} {c : Cursor F} {heap : List (Gradient F)} {g : Gradient F} (hi : c.inGrad = true)
    (hc : c.grad = some heap.length) (hh : c.svg.gradHeap = heap ++ [g]) (h1 : ∀ v ∈ valuesNamed "offset" attrs, ∃ x : F, readFraction v = .ok x)
    (h2 : ∀ v ∈ stopValues "stop-opacity" attrs, ∃ x : F, parseBasicFloat v = .ok x) (h3 : ∀ v ∈ stopValues "stop-color" attrs, ∃ x, parseSVGColor v = .ok x) :
    ∃ s, StopOf attrs s ∧ stopF attrs c = (.ok (), { c with svg := { c.svg with gradHeap := heap ++ [{ g with stops := g.stops ++ [s] }] } }) := by
  obtain ⟨s, hs⟩ := stopLoop_total (appendStyleAttrs attrs ["stop-color".toList, "stop-opacity".toList]) (⟨none, num 0, num 1⟩ : GradStop F)
    ⟨by rw [offset_append]; exact h1, by rw [stopValues_append _ (.inr rfl)]; exact h2, by rw [stopValues_append _ (.inl rfl)]; exact h3⟩
  refine ⟨s, stopLoop_ok hs, ?_⟩
  unfold stopF
  rw [SM.bind_run, SM.get_run]
  dsimp only
  rw [if_pos hi, lift_bind_ok hs, modifyGrad_last hc hh]

end GoSvg
