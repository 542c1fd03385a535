import Verif.Lemmas.Flags

/-! Where panics can come from. -/

set_option linter.unusedSectionVars false

namespace GoSvg

open Spec

variable {F : Type} [GoFloat F] [GoEnv]

open SM (get modify throw lift panic diverge forEach)

/-- No panic but at the sites of `B`; divergence only if `D`. -/
def Res.Within {α : Type} (B : Site → Prop) (D : Prop) : Res α → Prop
  | .ok _ => True
  | .err _ => True
  | .panic s => B s
  | .diverge => D

section

variable {α β : Type} {B : Site → Prop} {D : Prop}

theorem tame_within {r : Res α} (h : r.Tame) : r.Within B D := by
  cases r with
  | ok _ => trivial
  | err _ => trivial
  | panic _ => exact absurd h id
  | diverge => exact absurd h id

theorem within_bind {r : Res α} {f : α → Res β} (h1 : r.Within B D) (h2 : ∀ a, (f a).Within B D) : (r >>= f).Within B D := by
  cases r with
  | ok a => exact h2 a
  | err _ => trivial
  | panic _ => exact h1
  | diverge => exact h1

theorem tame_bind {r : Res α} {f : α → Res β} (h1 : r.Tame) (h2 : ∀ a, (f a).Tame) : (r >>= f).Tame := by
  cases r with
  | ok a => exact h2 a
  | err _ => trivial
  | panic _ => exact h1
  | diverge => exact h1

theorem within_panic {r : Res α} {s : Site} (h : r = .panic s) (w : r.Within B D) : B s := by rw [h] at w; exact w

theorem within_diverge {r : Res α} (h : r = .diverge) (w : r.Within B D) : D := by rw [h] at w; exact w

theorem within_mono {B' : Site → Prop} {D' : Prop} {r : Res α} (w : r.Within B D) (hB : ∀ s, B s → B' s) (hD : D → D') :
    r.Within B' D' := by
  cases r with
  | ok _ => trivial
  | err _ => trivial
  | panic s => exact hB s w
  | diverge => exact hD w

theorem loop_within {step : β → α → Res β} : ∀ (l : List α) (b : β), (∀ b, ∀ a ∈ l, (step b a).Within B D) →
    (Res.loop step b l).Within B D
  | [], _, _ => trivial
  | a :: l, b, h => by
    have ha := h b a List.mem_cons_self
    rw [Res.loop]
    cases hr : step b a with
    | ok b' => exact loop_within l b' fun b a' h' => h b a' (List.mem_cons_of_mem _ h')
    | err _ => trivial
    | panic _ => rw [hr] at ha; exact ha
    | diverge => rw [hr] at ha; exact ha

end

theorem parseUnit_tame (s : Str) : (parseUnit (F := F) s).Tame := by
  unfold parseUnit
  dsimp only
  split <;> trivial

theorem resolveUnit_tame (vb : Bounds F) (s : Str) (r : PercRef) : (resolveUnit vb s r).Tame := by
  have h := parseUnit_tame (F := F) s
  unfold resolveUnit
  cases hr : parseUnit (F := F) s with
  | ok p =>
    obtain ⟨v, b⟩ := p
    dsimp only
    split
    · cases r <;> trivial
    · trivial
  | err _ => trivial
  | panic _ => rw [hr] at h; exact h
  | diverge => rw [hr] at h; exact h

theorem parseBasicFloat_tame (s : Str) : (parseBasicFloat (F := F) s).Tame := by
  have h := parseUnit_tame (F := F) s
  unfold parseBasicFloat
  cases hr : parseUnit (F := F) s with
  | ok p => trivial
  | err _ => trivial
  | panic _ => rw [hr] at h; exact h
  | diverge => rw [hr] at h; exact h

theorem readFraction_tame (s : Str) : (readFraction (F := F) s).Tame := by
  unfold readFraction
  have key : ∀ (p : F × Str), (match parseBasicFloat (F := F) p.2 with
      | .ok f => .ok (f /. p.1) | .err e => .err e | .panic s => .panic s | .diverge => .diverge : Res F).Tame := by
    intro p
    have h := parseBasicFloat_tame (F := F) p.2
    cases hr : parseBasicFloat (F := F) p.2 with
    | ok p => trivial
    | err _ => trivial
    | panic _ => rw [hr] at h; exact h
    | diverge => rw [hr] at h; exact h
  exact key _

theorem parseDashes_tame (vb : Bounds F) : ∀ l, (parseDashes vb l).Tame
  | [] => trivial
  | d :: ds => by
    have h := resolveUnit_tame vb (trimSpace d) .diag
    have ih := parseDashes_tame vb ds
    rw [parseDashes]
    cases hr : resolveUnit vb (trimSpace d) .diag with
    | ok p =>
      dsimp only
      cases hr' : parseDashes vb ds with
      | ok _ => trivial
      | err _ => trivial
      | panic _ => rw [hr'] at ih; exact ih
      | diverge => rw [hr'] at ih; exact ih
    | err _ => trivial
    | panic _ => rw [hr] at h; exact h
    | diverge => rw [hr] at h; exact h

theorem parseSelector_tame (v : Str) : (parseSelector v).Tame := by
  unfold parseSelector
  split
  · trivial
  · split
    · split
      · trivial
      · dsimp only
        split <;> trivial
    · trivial

theorem parseColorValue_within (v : Str) : (parseColorValue v).Within (· = .color) False := by
  unfold parseColorValue
  split
  · rfl
  · split <;> trivial
  · split <;> trivial

theorem parseSVGColorNum_within (v : Str) : (parseSVGColorNum v).Within (· = .color) False := by
  unfold parseSVGColorNum
  dsimp only
  split
  · split
    · trivial
    · split
      · trivial
      · split <;> trivial
  · rfl

theorem parseSVGColor_within (v : Str) : (parseSVGColor v).Within (· = .color) False := by
  unfold parseSVGColor
  dsimp only
  split
  · trivial
  · split
    · trivial
    · split
      · trivial
      · split
        · split
          · exact within_bind (parseColorValue_within _) fun _ => within_bind (parseColorValue_within _) fun _ =>
              within_bind (parseColorValue_within _) fun _ => trivial
          · trivial
        · split
          · rfl
          · split
            · split
              · trivial
              · trivial
              · rename_i hr; exact within_panic (B := (· = .color)) hr (parseSVGColorNum_within _)
              · rename_i hr; exact within_diverge hr (parseSVGColorNum_within _)
            · trivial

/-! ### Declarations -/

/-- Declarations whose colours panic at sites of `B` only. -/
def PaintOK (B : Site → Prop) (ds : List (Str × Str)) : Prop :=
  ∀ kv ∈ ds, kv.1 = "fill".toList ∨ kv.1 = "stroke".toList → (parseSVGColor kv.2).Within B False

theorem styleEff_within {B : Site → Prop} {svg : Svg F} {st : PathStyle F} {k v : Str} {r : Res (PathStyle F)}
    (hp : k = "fill".toList ∨ k = "stroke".toList → (parseSVGColor v).Within B False) (h : styleEff svg st k v = .set r) :
    r.Within B False := by
  unfold styleEff at h
  by_cases h1 : k = "fill".toList
  · rw [if_pos h1] at h
    split at h
    · cases h; trivial
    · cases h; exact within_bind (hp (.inl h1)) fun _ => trivial
  rw [if_neg h1] at h; clear h1
  by_cases h1 : k = "fill-rule".toList
  · rw [if_pos h1] at h
    split at h
    · cases h; trivial
    · split at h
      · cases h; trivial
      · cases h
  rw [if_neg h1] at h; clear h1
  by_cases h1 : k = "stroke".toList
  · rw [if_pos h1] at h
    split at h
    · cases h; trivial
    · cases h; exact within_bind (hp (.inr h1)) fun _ => trivial
  rw [if_neg h1] at h; clear h1
  by_cases h1 : k = "stroke-linegap".toList
  · rw [if_pos h1] at h
    split at h
    · cases h; trivial
    · cases h
  rw [if_neg h1] at h; clear h1
  by_cases h1 : k = "stroke-leadlinecap".toList
  · rw [if_pos h1] at h
    split at h
    · cases h; trivial
    · cases h
  rw [if_neg h1] at h; clear h1
  by_cases h1 : k = "stroke-linecap".toList
  · rw [if_pos h1] at h
    split at h
    · cases h; trivial
    · cases h
  rw [if_neg h1] at h; clear h1
  by_cases h1 : k = "stroke-linejoin".toList
  · rw [if_pos h1] at h
    split at h
    · cases h; trivial
    · cases h
  rw [if_neg h1] at h; clear h1
  by_cases h1 : k = "stroke-miterlimit".toList
  · rw [if_pos h1] at h
    cases h; exact tame_within (tame_bind (parseBasicFloat_tame _) fun _ => trivial)
  rw [if_neg h1] at h; clear h1
  by_cases h1 : k = "stroke-width".toList
  · rw [if_pos h1] at h
    cases h; exact tame_within (tame_bind (resolveUnit_tame _ _ _) fun _ => trivial)
  rw [if_neg h1] at h; clear h1
  by_cases h1 : k = "stroke-dashoffset".toList
  · rw [if_pos h1] at h
    cases h; exact tame_within (tame_bind (resolveUnit_tame _ _ _) fun _ => trivial)
  rw [if_neg h1] at h; clear h1
  by_cases h1 : k = "stroke-dasharray".toList
  · rw [if_pos h1] at h
    split at h
    · cases h; exact tame_within (tame_bind (parseDashes_tame _ _) fun _ => trivial)
    · cases h; trivial
  rw [if_neg h1] at h; clear h1
  by_cases h1 : k = "opacity".toList ∨ k = "stroke-opacity".toList ∨ k = "fill-opacity".toList
  · rw [if_pos h1] at h
    cases h; exact tame_within (tame_bind (parseBasicFloat_tame _) fun _ => trivial)
  rw [if_neg h1] at h; clear h1
  by_cases h1 : k = "transform".toList
  · rw [if_pos h1] at h; cases h
  rw [if_neg h1] at h; clear h1
  by_cases h1 : k = "mask".toList
  · rw [if_pos h1] at h; cases h
  rw [if_neg h1] at h; cases h; trivial

theorem handleError_tame (m : Msg) (c : Cursor F) : (handleError m c).1.Tame := by
  unfold handleError
  split
  · trivial
  · split <;> trivial

theorem parseTransform_tame (v : Str) (c : Cursor F) (hs : c.styleStack ≠ []) : (parseTransform (F := F) v c).1.Tame := by
  cases h : c.styleStack with
  | nil => exact absurd h hs
  | cons top rest =>
    obtain ⟨r, g, h1, h2⟩ := parseTransform_frame (F := F) v top.transform
    rw [h2 c top rest h rfl]; exact h1

/-- There is a current style, or its absence is one of the panics allowed. -/
def StackOr (B : Site → Prop) (c : Cursor F) : Prop := c.styleStack ≠ [] ∨ B .styleStack

theorem parseTransform_within {B : Site → Prop} {D : Prop} (v : Str) (c : Cursor F) (hs : StackOr B c) :
    (parseTransform (F := F) v c).1.Within B D := by
  rcases hs with hs | hs
  · exact tame_within (parseTransform_tame v c hs)
  · by_cases h : c.styleStack = []
    · have : parseTransform (F := F) v c = (.panic .styleStack, c) := by
        rw [parseTransform, SM.bind_run, SM.get_run]; simp only [h]; rfl
      rw [this]; exact hs
    · exact tame_within (parseTransform_tame v c h)

theorem readStyleAttr_within {B : Site → Prop} (st : PathStyle F) (k v : Str) (c : Cursor F) (hs : StackOr B c)
    (hp : k = "fill".toList ∨ k = "stroke".toList → (parseSVGColor v).Within B False) :
    (readStyleAttr st k v c).1.Within B False := by
  rw [readStyleAttr_eff]
  cases he : styleEff c.svg st k v with
  | set r => exact styleEff_within hp he
  | warn m =>
    simp only [runEff]
    rw [SM.bind_run]
    have h := handleError_tame m c
    rcases hr : handleError m c with ⟨r, d⟩
    rw [hr] at h
    cases r with
    | ok _ => trivial
    | err _ => trivial
    | panic _ => exact absurd h id
    | diverge => exact absurd h id
  | transform =>
    simp only [runEff]
    rw [SM.bind_run]
    have h := parseTransform_within (D := False) v c hs
    rcases hr : parseTransform (F := F) v c with ⟨r, d⟩
    rw [hr] at h
    cases r with
    | ok _ => trivial
    | err _ => trivial
    | panic _ => exact h
    | diverge => exact h
  | mask =>
    simp only [runEff]
    rw [SM.bind_run, SM.lift_run]
    have h := parseSelector_tame v
    cases hr : parseSelector v with
    | ok _ => trivial
    | err _ => trivial
    | panic _ => rw [hr] at h; exact absurd h id
    | diverge => rw [hr] at h; exact absurd h id

theorem declLoop_within {B : Site → Prop} : ∀ (ds : List (Str × Str)) (st : PathStyle F) (c : Cursor F), StackOr B c →
    PaintOK B ds → (declLoop st ds c).1.Within B False
  | [], _, _, _, _ => trivial
  | d :: ds, st, c, hs, hp => by
    have h := readStyleAttr_within st d.1 d.2 c hs (hp d List.mem_cons_self)
    have hf := declLoop_styleR [d] st c
    rw [declLoop, SM.bind_run] at hf
    rw [declLoop, SM.bind_run]
    rcases hr : readStyleAttr st d.1 d.2 c with ⟨r, c1⟩
    rw [hr] at h hf
    cases r with
    | ok st1 =>
      have e : c1.styleStack = c.styleStack := by
        have := hf.eq
        change c1 = _ at this
        rw [this]
      exact declLoop_within ds st1 c1 (by unfold StackOr; rw [e]; exact hs) fun kv h => hp kv (List.mem_cons_of_mem _ h)
    | err _ => trivial
    | panic _ => exact h
    | diverge => exact h

theorem pushStyle_within {B : Site → Prop} (attrs : List Attr) (c : Cursor F) (hs : StackOr B c)
    (hp : PaintOK B (decls attrs)) : (pushStyle attrs c).1.Within B False := by
  rw [pushStyle_decls]
  cases hst : c.styleStack with
  | nil =>
    rcases hs with hs | hs
    · exact absurd hst hs
    · exact hs
  | cons top rest =>
    have h := declLoop_within (decls attrs) top c hs hp
    dsimp only
    rw [SM.bind_run]
    rcases hr : declLoop top (decls attrs) c with ⟨r, c1⟩
    rw [hr] at h
    cases r with
    | ok _ => trivial
    | err _ => trivial
    | panic _ => exact h
    | diverge => exact h

/-! ### Elements -/

/-- A run from a state with `I` panics at sites of `B` only, diverges only if `D`, and ends in a state with `I`. -/
def Safe {α : Type} (B : Site → Prop) (D : Prop) (I : Cursor F → Prop) (m : CM F α) : Prop :=
  ∀ c, I c → (m c).1.Within B D ∧ I (m c).2

section

variable {α β : Type} {B : Site → Prop} {D : Prop} {I : Cursor F → Prop}

theorem safe_pure (a : α) : Safe B D I (pure a : CM F α) := fun _ h => ⟨trivial, h⟩
theorem safe_throw (a : Err) : Safe B D I (throw a : CM F α) := fun _ h => ⟨trivial, h⟩
theorem safe_get : Safe B D I (get : CM F (Cursor F)) := fun _ h => ⟨trivial, h⟩
theorem safe_lift {r : Res α} (h : r.Within B D) : Safe B D I (lift r : CM F α) := fun _ hi => ⟨h, hi⟩
theorem safe_modify {f : Cursor F → Cursor F} (h : ∀ c, I c → I (f c)) : Safe B D I (modify f) := fun c hi => ⟨trivial, h c hi⟩

theorem safe_bind {m : CM F α} {f : α → CM F β} (h1 : Safe B D I m) (h2 : ∀ a, Safe B D I (f a)) : Safe B D I (m >>= f) := by
  intro c hc
  obtain ⟨a1, a2⟩ := h1 c hc
  rw [SM.bind_run]
  rcases hr : m c with ⟨r, d⟩
  rw [hr] at a1 a2
  cases r with
  | ok a => exact h2 a d a2
  | err e => exact ⟨trivial, a2⟩
  | panic s => exact ⟨a1, a2⟩
  | diverge => exact ⟨a1, a2⟩

theorem safe_ite {p : Prop} [Decidable p] {m n : CM F α} (h1 : Safe B D I m) (h2 : Safe B D I n) :
    Safe B D I (if p then m else n) := by
  split
  · exact h1
  · exact h2

theorem safe_attrLoop {step : β → Attr → CM F β} (hs : ∀ b a, Safe B D I (step b a)) :
    ∀ (as : List Attr) (b : β), Safe B D I (attrLoop step b as)
  | [], _ => safe_pure _
  | a :: as, b => by
    rw [attrLoop]
    exact safe_bind (hs b a) fun b' => safe_attrLoop hs as b'

end

/-- The gradient being read exists. -/
def HasGrad (c : Cursor F) : Prop := ∃ addr, c.grad = some addr ∧ addr < c.svg.gradHeap.length

/-- A gradient element is being read, and there is a current style. -/
def InGradOK (B : Site → Prop) (c : Cursor F) : Prop := StackOr B c ∧ HasGrad c

theorem gradBody_ok {B : Site → Prop} {c c' : Cursor F} (h : GradBodyR c c') (hc : InGradOK B c) : InGradOK B c' := by
  obtain ⟨h1, addr, h2, h3⟩ := hc
  refine ⟨by unfold StackOr; rw [h.eq]; exact h1, addr, by rw [h.eq]; exact h2, by rw [h.size]; exact h3⟩

section

variable {B : Site → Prop} {D : Prop}

theorem modifyGrad_safe (f : Gradient F → Gradient F) : Safe B D (InGradOK B) (modifyGrad f) := by
  intro c hc
  refine ⟨?_, gradBody_ok (modifyGrad_body f c) hc⟩
  obtain ⟨_, addr, h, -⟩ := hc
  unfold modifyGrad
  rw [h]; trivial

theorem setGradID_safe (id : Str) : Safe B D (InGradOK B) (setGradID id : CM F Unit) := by
  intro c hc
  refine ⟨?_, gradBody_ok (setGradID_body id c) hc⟩
  obtain ⟨_, addr, h, -⟩ := hc
  unfold setGradID
  rw [h]; trivial

theorem currentGrad_safe : Safe B D (InGradOK B) (currentGrad : CM F (Gradient F)) := by
  intro c hc
  refine ⟨?_, gradBody_ok (currentGrad_body c) hc⟩
  obtain ⟨_, addr, h, h'⟩ := hc
  unfold currentGrad
  rw [h]
  simp only [Option.bind_some, List.getElem?_eq_getElem h']
  trivial

theorem parseTransform_safe (v : Str) : Safe B D (InGradOK B) (parseTransform v : CM F (Matrix2D F)) := fun c hc =>
  ⟨parseTransform_within v c hc.1, gradBody_ok (parseTransform_body v c) hc⟩

theorem readGradAttr_safe (a : Attr) : Safe B D (InGradOK B) (readGradAttr a : CM F Unit) := by
  unfold readGradAttr
  refine safe_ite ?_ (safe_ite ?_ (safe_ite ?_ (safe_pure _)))
  · exact safe_bind (parseTransform_safe _) fun _ => modifyGrad_safe _
  · exact safe_ite (modifyGrad_safe _) (safe_ite (modifyGrad_safe _) (safe_pure _))
  · exact safe_ite (modifyGrad_safe _) (safe_ite (modifyGrad_safe _) (safe_ite (modifyGrad_safe _) (safe_pure _)))

theorem linAttr_safe (d : LinStrs) (a : Attr) : Safe B D (InGradOK B) (linAttr d a : CM F LinStrs) := by
  unfold linAttr
  have hp : ∀ d : LinStrs, Safe B D (InGradOK B) (pure d : CM F LinStrs) := fun d => safe_pure d
  exact safe_ite (safe_bind (setGradID_safe _) fun _ => hp _) (safe_ite (hp _) (safe_ite (hp _) (safe_ite (hp _)
    (safe_ite (hp _) (safe_bind (readGradAttr_safe _) fun _ => hp _)))))

theorem radAttr_safe (d : RadStrs) (a : Attr) : Safe B D (InGradOK B) (radAttr d a : CM F RadStrs) := by
  unfold radAttr
  have hp : ∀ d : RadStrs, Safe B D (InGradOK B) (pure d : CM F RadStrs) := fun d => safe_pure d
  exact safe_ite (safe_bind (setGradID_safe _) fun _ => hp _) (safe_ite (hp _) (safe_ite (hp _) (safe_ite (hp _)
    (safe_ite (hp _) (safe_ite (hp _) (safe_ite (hp _) (safe_bind (readGradAttr_safe _) fun _ => hp _)))))))

theorem withNewGrad_ok {c : Cursor F} (h : StackOr B c) : InGradOK B (withNewGrad c) :=
  ⟨h, _, rfl, by simp [withNewGrad]⟩

theorem linearGradientF_within (attrs : List Attr) (c : Cursor F) (h : StackOr B c) :
    (linearGradientF attrs c).1.Within B D := by
  have hl : ∀ (b : Bounds F) s r, Safe B D (InGradOK B) (lift (resolveUnit b s r) : CM F F) := fun b s r =>
    safe_lift (tame_within (resolveUnit_tame b s r))
  have := (safe_bind (safe_attrLoop linAttr_safe attrs ⟨"0%".toList, "0%".toList, "100%".toList, "0".toList⟩) fun d =>
    safe_bind currentGrad_safe fun g => safe_bind (hl (gradBox g) d.x1 .width) fun x1 => safe_bind (hl (gradBox g) d.y1 .height) fun y1 =>
    safe_bind (hl (gradBox g) d.x2 .width) fun x2 => safe_bind (hl (gradBox g) d.y2 .height) fun y2 =>
      modifyGrad_safe fun g => { g with direction := some (.linear x1 y1 x2 y2) }) (withNewGrad c) (withNewGrad_ok h)
  exact this.1

theorem radialGradientF_within (attrs : List Attr) (c : Cursor F) (h : StackOr B c) :
    (radialGradientF attrs c).1.Within B D := by
  have hl : ∀ (b : Bounds F) s r, Safe B D (InGradOK B) (lift (resolveUnit b s r) : CM F F) := fun b s r =>
    safe_lift (tame_within (resolveUnit_tame b s r))
  have := (safe_bind (safe_attrLoop radAttr_safe attrs ⟨false, false, fifty, fifty, fifty, fifty, fifty, fifty⟩) fun d =>
    safe_bind currentGrad_safe fun g => safe_bind (hl (gradBox g) d.cx .width) fun cx => safe_bind (hl (gradBox g) d.cy .height) fun cy =>
    safe_bind (hl (gradBox g) (if d.setFx then d.fx else d.cx) .width) fun fx =>
    safe_bind (hl (gradBox g) (if d.setFy then d.fy else d.cy) .height) fun fy =>
    safe_bind (hl (gradBox g) d.r .diag) fun r => safe_bind (hl (gradBox g) d.fr .diag) fun fr =>
      modifyGrad_safe fun g => { g with direction := some (.radial cx cy fx fy r fr) }) (withNewGrad c) (withNewGrad_ok h)
  exact this.1

end

/-- The gradient being read, if any, exists. -/
def GradOK (c : Cursor F) : Prop := c.inGrad = true → HasGrad c

/-- The stop colours of an element panic at sites of `B` only. -/
def StopOK (B : Site → Prop) (attrs : List Attr) : Prop :=
  ∀ a ∈ appendStyleAttrs attrs ["stop-color".toList, "stop-opacity".toList], a.name = "stop-color".toList →
    (parseSVGColor a.value).Within B False

theorem stopF_within {B : Site → Prop} {D : Prop} (attrs : List Attr) (h : StopOK B attrs) (c : Cursor F) (hc : GradOK c) :
    (stopF attrs c).1.Within B D := by
  unfold stopF
  rw [SM.bind_run, SM.get_run]
  dsimp only
  by_cases hg : c.inGrad = true
  · rw [if_pos hg, SM.bind_run, SM.lift_run]
    have hl : (Res.loop (stopAttr (F := F)) ⟨none, num 0, num 1⟩
        (appendStyleAttrs attrs ["stop-color".toList, "stop-opacity".toList])).Within B D := by
      refine loop_within _ _ fun st a ha => ?_
      unfold stopAttr
      split
      · exact tame_within (tame_bind (readFraction_tame _) fun _ => trivial)
      · split
        · rename_i hn
          exact within_bind (within_mono (h a ha hn) (fun _ => id) False.elim) fun _ => trivial
        · split
          · exact tame_within (tame_bind (parseBasicFloat_tame _) fun _ => trivial)
          · trivial
    cases hr : Res.loop (stopAttr (F := F)) ⟨none, num 0, num 1⟩ (appendStyleAttrs attrs ["stop-color".toList, "stop-opacity".toList]) with
    | ok st =>
      obtain ⟨addr, h1, -⟩ := hc hg
      dsimp only
      unfold modifyGrad
      rw [h1]; trivial
    | err e => trivial
    | panic s => exact within_panic hr hl
    | diverge => exact within_diverge hr hl
  · rw [if_neg hg]; trivial

/-! ### Shapes -/

theorem loop_tame {α β : Type} {step : β → α → Res β} (h : ∀ b a, (step b a).Tame) : ∀ (l : List α) (b : β), (Res.loop step b l).Tame
  | [], _ => trivial
  | a :: l, b => by
    have ha := h b a
    rw [Res.loop]
    cases hr : step b a with
    | ok b' => exact loop_tame h l b'
    | err _ => trivial
    | panic _ => rw [hr] at ha; exact ha
    | diverge => rw [hr] at ha; exact ha

theorem lift_bind_within {α : Type} {B : Site → Prop} {D : Prop} {r : Res α} {f : α → CM F Unit} {c : Cursor F} (h : r.Tame)
    (hf : ∀ a, (f a c).1.Within B D) : ((lift r >>= f) c).1.Within B D := by
  rw [SM.bind_run, SM.lift_run]
  cases r with
  | ok a => exact hf a
  | err _ => trivial
  | panic _ => exact absurd h id
  | diverge => exact absurd h id

theorem rectAttr_tame (vb : Bounds F) (v : RectVars F) (a : Attr) : (rectAttr vb v a).Tame := by
  unfold rectAttr
  repeat' split
  all_goals first | trivial | exact tame_bind (resolveUnit_tame _ _ _) fun _ => trivial

theorem maskAttr_tame (vb : Bounds F) (v : MaskVars F) (a : Attr) : (maskAttr vb v a).Tame := by
  unfold maskAttr
  repeat' split
  all_goals first | trivial | exact tame_bind (resolveUnit_tame _ _ _) fun _ => trivial

theorem circleAttr_tame (vb : Bounds F) (v : CircleVars F) (a : Attr) : (circleAttr vb v a).Tame := by
  unfold circleAttr
  repeat' split
  all_goals first | trivial | exact tame_bind (resolveUnit_tame _ _ _) fun _ => trivial

theorem lineAttr_tame (vb : Bounds F) (v : LineVars F) (a : Attr) : (lineAttr vb v a).Tame := by
  unfold lineAttr
  repeat' split
  all_goals first | trivial | exact tame_bind (resolveUnit_tame _ _ _) fun _ => trivial

theorem useAttr_tame (vb : Bounds F) (v : UseVars F) (a : Attr) : (useAttr vb v a).Tame := by
  unfold useAttr
  repeat' split
  all_goals first | trivial | exact tame_bind (resolveUnit_tame _ _ _) fun _ => trivial

/-- Every loop of a rounded rectangle ends within the fuel. -/
def RectsEnd (F : Type) [GoFloat F] (fuel : Nat) : Prop := ∀ (x y : F) (v : RectVars F), rectOps fuel x y v ≠ none

section

variable {B : Site → Prop} {D : Prop}

theorem rectF_within {fuel : Nat} (hD : D ∨ RectsEnd F fuel) (attrs : List Attr) (c : Cursor F) :
    (rectF fuel attrs c).1.Within B D := by
  unfold rectF
  rw [SM.bind_run, SM.get_run]
  refine lift_bind_within (loop_tame (rectAttr_tame _) _ _) fun v => ?_
  cases hr : rectOps fuel c.pc.curX c.pc.curY v with
  | none =>
    rcases hD with h | h
    · exact h
    · exact absurd hr (h _ _ _)
  | some ops => trivial

theorem circleF_within (attrs : List Attr) (c : Cursor F) : (circleF attrs c).1.Within B D := by
  unfold circleF
  rw [SM.bind_run, SM.get_run]
  refine lift_bind_within (loop_tame (circleAttr_tame _) _ _) fun v => ?_
  split <;> trivial

theorem lineF_within (attrs : List Attr) (c : Cursor F) : (lineF attrs c).1.Within B D := by
  unfold lineF
  rw [SM.bind_run, SM.get_run]
  exact lift_bind_within (loop_tame (lineAttr_tame _) _ _) fun v => trivial

theorem maskF_within (attrs : List Attr) (c : Cursor F) : (maskF attrs c).1.Within B D := by
  unfold maskF
  rw [SM.bind_run, SM.get_run]
  exact lift_bind_within (loop_tame (maskAttr_tame _) _ _) fun v => trivial

theorem polyAttr_safe (u : Unit) (a : Attr) : Safe B D (fun _ => True) (polyAttr u a : CM F Unit) := by
  unfold polyAttr
  refine safe_ite ?_ (safe_pure _)
  intro c _
  obtain ⟨b, ps, h⟩ := getPoints_frame (F := F) a.value
  refine ⟨?_, trivial⟩
  dsimp only
  rw [h]
  dsimp only
  split
  · trivial
  · cases b <;> trivial

theorem polylineF_safe (attrs : List Attr) : Safe B D (fun _ => True) (polylineF attrs : CM F Unit) :=
  safe_bind (safe_attrLoop polyAttr_safe _ _) fun _ => safe_modify fun _ _ => trivial

theorem polygonF_within (attrs : List Attr) (c : Cursor F) : (polygonF attrs c).1.Within B D := by
  have h := (polylineF_safe (B := B) (D := D) attrs c trivial).1
  unfold polygonF
  rcases hr : polylineF attrs c with ⟨r, d⟩
  rw [hr] at h
  cases r <;> trivial

theorem pathF_safe (attrs : List Attr) : Safe B D (fun _ => True) (pathF attrs : CM F Unit) := by
  refine safe_attrLoop (fun u a => ?_) _ _
  unfold pathAttr
  refine safe_ite ?_ (safe_pure _)
  intro c _
  refine ⟨?_, trivial⟩
  have h := (compilePath_pstep a.value c.pc).2
  unfold onPath
  rcases hr : compilePath a.value c.pc with ⟨r, d⟩
  rw [hr] at h
  exact tame_within h

theorem svgAttr_safe (wh : F × F) (a : Attr) : Safe B D (fun _ => True) (svgAttr wh a : CM F (F × F)) := by
  unfold svgAttr
  have hl : ∀ s, Safe B D (fun _ => True) (lift (parseBasicFloat s) : CM F F) := fun s => safe_lift (tame_within (parseBasicFloat_tame s))
  refine safe_ite ?_ (safe_ite ?_ (safe_ite ?_ (safe_pure _)))
  · intro c _
    refine ⟨?_, trivial⟩
    obtain ⟨b, ps, h⟩ := getPoints_frame (F := F) a.value
    unfold svgBox
    rw [h]
    dsimp only
    split
    · cases b <;> trivial
    · trivial
  · exact safe_bind (safe_modify fun _ _ => trivial) fun _ => safe_bind (hl _) fun _ => safe_pure _
  · exact safe_bind (safe_modify fun _ _ => trivial) fun _ => safe_bind (hl _) fun _ => safe_pure _

theorem svgF_within (attrs : List Attr) (c : Cursor F) : (svgF attrs c).1.Within B D := by
  have h : Safe B D (fun _ => True) (svgF attrs : CM F Unit) := by
    unfold svgF
    exact safe_bind (safe_modify fun _ _ => trivial) fun _ => safe_bind (safe_attrLoop svgAttr_safe _ _) fun _ =>
      safe_modify fun _ _ => trivial
  exact (h c trivial).1

end

/-- Every element function but `use`. -/
theorem drawFuncs_within {B : Site → Prop} {D : Prop} {fuel : Nat} {use : List Attr → CM F Unit} {tag : Str}
    {df : List Attr → CM F Unit} (h : drawFuncs fuel use tag = some df) (ht : tag ≠ "use".toList) (hD : D ∨ RectsEnd F fuel)
    (attrs : List Attr) (ha : StopOK B attrs) (c : Cursor F) (hs : StackOr B c) (hg : GradOK c) :
    (df attrs c).1.Within B D := by
  unfold drawFuncs at h
  by_cases h1 : tag = "svg".toList
  · rw [if_pos h1] at h; cases h; exact svgF_within attrs c
  rw [if_neg h1] at h; clear h1
  by_cases h1 : tag = "g".toList
  · rw [if_pos h1] at h; cases h; trivial
  rw [if_neg h1] at h; clear h1
  by_cases h1 : tag = "line".toList
  · rw [if_pos h1] at h; cases h; exact lineF_within attrs c
  rw [if_neg h1] at h; clear h1
  by_cases h1 : tag = "stop".toList
  · rw [if_pos h1] at h; cases h; exact stopF_within attrs ha c hg
  rw [if_neg h1] at h; clear h1
  by_cases h1 : tag = "rect".toList
  · rw [if_pos h1] at h; cases h; exact rectF_within hD attrs c
  rw [if_neg h1] at h; clear h1
  by_cases h1 : tag = "circle".toList
  · rw [if_pos h1] at h; cases h; exact circleF_within attrs c
  rw [if_neg h1] at h; clear h1
  by_cases h1 : tag = "ellipse".toList
  · rw [if_pos h1] at h; cases h; exact circleF_within attrs c
  rw [if_neg h1] at h; clear h1
  by_cases h1 : tag = "polyline".toList
  · rw [if_pos h1] at h; cases h; exact (polylineF_safe attrs c trivial).1
  rw [if_neg h1] at h; clear h1
  by_cases h1 : tag = "polygon".toList
  · rw [if_pos h1] at h; cases h; exact polygonF_within attrs c
  rw [if_neg h1] at h; clear h1
  by_cases h1 : tag = "path".toList
  · rw [if_pos h1] at h; cases h; exact (pathF_safe attrs c trivial).1
  rw [if_neg h1] at h; clear h1
  by_cases h1 : tag = "desc".toList
  · rw [if_pos h1] at h; cases h; trivial
  rw [if_neg h1] at h; clear h1
  by_cases h1 : tag = "defs".toList
  · rw [if_pos h1] at h; cases h; trivial
  rw [if_neg h1] at h; clear h1
  by_cases h1 : tag = "title".toList
  · rw [if_pos h1] at h; cases h; trivial
  rw [if_neg h1] at h; clear h1
  by_cases h1 : tag = "linearGradient".toList
  · rw [if_pos h1] at h; cases h; exact linearGradientF_within attrs c hs
  rw [if_neg h1] at h; clear h1
  by_cases h1 : tag = "radialGradient".toList
  · rw [if_pos h1] at h; cases h; exact radialGradientF_within attrs c hs
  rw [if_neg h1] at h; clear h1
  by_cases h1 : tag = "mask".toList
  · rw [if_pos h1] at h; cases h; exact maskF_within attrs c
  rw [if_neg h1] at h; clear h1
  by_cases h1 : tag = "use".toList
  · exact absurd h1 ht
  rw [if_neg h1] at h; cases h

/-! ### The gradient being read exists -/

/-- Existence of the gradient being read is kept. -/
def KeepsGrad (c c' : Cursor F) : Prop := GradOK c → GradOK c'

theorem keepsGrad_pre : Pre (KeepsGrad (F := F)) := ⟨fun _ => id, fun h1 h2 h => h2 (h1 h)⟩

theorem keepsGrad_eq {c c' : Cursor F} (h1 : c'.inGrad = c.inGrad) (h2 : c'.grad = c.grad)
    (h3 : c'.svg.gradHeap = c.svg.gradHeap) : KeepsGrad c c' := by
  intro h hg
  obtain ⟨a, ha, hl⟩ := h (h1 ▸ hg)
  exact ⟨a, h2.trans ha, by rw [h3]; exact hl⟩

theorem gradBody_keeps {c c' : Cursor F} (h : GradBodyR c c') : KeepsGrad c c' := by
  intro h0 hg
  obtain ⟨a, ha, hl⟩ := h0 (by rw [h.eq] at hg; exact hg)
  exact ⟨a, by rw [h.eq]; exact ha, by rw [h.size]; exact hl⟩

theorem styleR_keepsGrad {c c' : Cursor F} (h : StyleR c c') : KeepsGrad c c' := by
  rw [h.eq]; exact keepsGrad_eq rfl rfl rfl

theorem pushStyle_keepsGrad (attrs : List Attr) : Keeps KeepsGrad (pushStyle attrs : CM F Unit) := by
  intro c
  rcases pushStyle_frame attrs c with ⟨top, rest, st, c1, -, -, h, h'⟩ | ⟨-, h⟩
  · rw [h']; exact keepsGrad_pre.trans (styleR_keepsGrad h) (keepsGrad_eq rfl rfl rfl)
  · exact styleR_keepsGrad h

theorem popStyle_keepsGrad : Keeps KeepsGrad (popStyle : CM F Unit) := by
  intro c
  unfold popStyle
  split
  · exact keepsGrad_pre.refl c
  · exact keepsGrad_eq rfl rfl rfl

theorem drawFuncs_keepsGrad {fuel : Nat} {use : List Attr → CM F Unit} {tag : Str} {df : List Attr → CM F Unit}
    (h : drawFuncs fuel use tag = some df) (ht : tag ≠ "use".toList) (attrs : List Attr) : Keeps KeepsGrad (df attrs) := by
  intro c
  have hgrad : IsGrad tag → KeepsGrad c (df attrs c).2 := fun hg _ _ => by
    have hb := grad_start h hg attrs c
    have h2 : HasGrad (withNewGrad c) := ⟨_, rfl, by simp [withNewGrad]⟩
    obtain ⟨a, ha, hl⟩ := h2
    exact ⟨a, by rw [hb.eq]; exact ha, by rw [hb.size]; exact hl⟩
  rcases drawFuncs_cases h with ⟨-, h⟩ | ⟨-, rfl⟩ | ⟨-, rfl⟩ | ⟨-, rfl⟩ | ⟨-, rfl⟩ | ⟨-, rfl⟩ | ⟨-, rfl⟩ | ⟨ht, rfl⟩ | ⟨ht, rfl⟩ |
    ⟨-, rfl⟩ | ⟨h, -⟩
  · rw [(h attrs c).eq]; exact keepsGrad_eq rfl rfl rfl
  · rw [(svgF_keeps attrs c).eq]; exact keepsGrad_eq rfl rfl rfl
  · exact keepsGrad_pre.refl c
  · exact gradBody_keeps (stopF_body attrs c)
  · exact keepsGrad_eq rfl rfl rfl
  · exact keepsGrad_eq rfl rfl rfl
  · exact keepsGrad_eq rfl rfl rfl
  · exact hgrad (.inl ht)
  · exact hgrad (.inr ht)
  · have : Keeps KeepsGrad (maskF attrs : CM F Unit) := by
      unfold maskF
      exact keeps_bind keepsGrad_pre (keeps_get keepsGrad_pre) fun _ => keeps_bind keepsGrad_pre (keeps_lift keepsGrad_pre _) fun _ =>
        keeps_modify fun _ => keepsGrad_eq rfl rfl rfl
    exact this c
  · exact absurd h ht

end GoSvg
