import Verif.Lemmas.PathFrame
import Verif.Model.Parse

/-! What one style declaration does to the cursor. -/

set_option linter.unusedSectionVars false

namespace GoSvg

variable {F : Type} [GoFloat F] [GoEnv]

open SM (get modify throw lift panic diverge forEach)

/-- The kinds of effect of a declaration. -/
inductive Eff (F : Type) where
  | set (r : Res (PathStyle F))
  | warn (m : Msg)
  | transform
  | mask

/-- The effect of a declaration: it depends on the view box and the gradients only. -/
def styleEff (svg : Svg F) (st : PathStyle F) (k v : Str) : Eff F :=
  if k = "fill".toList then
    match readGradURL svg v st.fillerColor with
    | some g => .set (.ok { st with fillerColor := some (.gradient g) })
    | none => .set (do .ok { st with fillerColor := (← parseSVGColor v).map .plain })
  else if k = "fill-rule".toList then
    if v = "evenodd".toList then .set (.ok { st with useNonZeroWinding := false })
    else if v = "nonzero".toList then .set (.ok { st with useNonZeroWinding := true })
    else .warn (.unsupportedValue k v)
  else if k = "stroke".toList then
    match readGradURL svg v st.linerColor with
    | some g => .set (.ok { st with linerColor := some (.gradient g) })
    | none => .set (do .ok { st with linerColor := (← parseSVGColor v).map .plain })
  else if k = "stroke-linegap".toList then
    match gapOf v with
    | some g => .set (.ok { st with join := { st.join with lineGap := g } })
    | none => .warn (.unsupportedValue k v)
  else if k = "stroke-leadlinecap".toList then
    match capOf v with
    | some g => .set (.ok { st with join := { st.join with leadLineCap := g } })
    | none => .warn (.unsupportedValue k v)
  else if k = "stroke-linecap".toList then
    match capOf v with
    | some g => .set (.ok { st with join := { st.join with trailLineCap := g } })
    | none => .warn (.unsupportedValue k v)
  else if k = "stroke-linejoin".toList then
    match joinOf v with
    | some g => .set (.ok { st with join := { st.join with lineJoin := g } })
    | none => .warn (.unsupportedValue k v)
  else if k = "stroke-miterlimit".toList then
    .set (do .ok { st with join := { st.join with miterLimit := toFix (← parseBasicFloat (F := F) v) } })
  else if k = "stroke-width".toList then .set (do .ok { st with lineWidth := ← resolveUnit svg.viewBox v .width })
  else if k = "stroke-dashoffset".toList then
    .set (do .ok { st with dash := { st.dash with dashOffset := ← resolveUnit svg.viewBox v .diag } })
  else if k = "stroke-dasharray".toList then
    if v ≠ "none".toList then
      .set (do .ok { st with dash := { st.dash with dash := ← parseDashes svg.viewBox (splitOnCommaOrSpace v) } })
    else .set (.ok st)
  else if k = "opacity".toList ∨ k = "stroke-opacity".toList ∨ k = "fill-opacity".toList then
    .set (do
      let op ← parseBasicFloat v
      let st := if k ≠ "stroke-opacity".toList then { st with fillOpacity := st.fillOpacity *. op } else st
      let st := if k ≠ "fill-opacity".toList then { st with lineOpacity := st.lineOpacity *. op } else st
      .ok st)
  else if k = "transform".toList then .transform
  else if k = "mask".toList then .mask
  else .set (.ok st)

/-- Runs an effect. -/
def runEff (st : PathStyle F) (v : Str) : Eff F → CM F (PathStyle F)
  | .set r => lift r
  | .warn m => do
    handleError m
    pure st
  | .transform => do
    let m ← parseTransform v
    pure { st with transform := m }
  | .mask => do
    let id ← lift (parseSelector v)
    addMask st id

theorem lift_bind_pure {σ α β : Type} (r : Res α) (f : α → β) (s : σ) :
    (do let x ← lift r; pure (f x) : SM σ β) s = (lift (do let x ← r; .ok (f x)) : SM σ β) s := by
  cases r <;> rfl

theorem readStyleAttr_eff (st : PathStyle F) (k v : Str) (c : Cursor F) :
    readStyleAttr st k v c = runEff st v (styleEff c.svg st k v) c := by
  rw [readStyleAttr, SM.bind_run, SM.get_run, styleEff]
  dsimp only
  by_cases h : k = "fill".toList
  · rw [if_pos h, if_pos h]
    cases readGradURL c.svg v st.fillerColor with
    | some g => rfl
    | none => cases parseSVGColor v <;> rfl
  rw [if_neg h, if_neg h]
  clear h
  by_cases h : k = "fill-rule".toList
  · rw [if_pos h, if_pos h]
    by_cases h1 : v = "evenodd".toList
    · rw [if_pos h1, if_pos h1]; rfl
    rw [if_neg h1, if_neg h1]
    by_cases h1 : v = "nonzero".toList
    · rw [if_pos h1, if_pos h1]; rfl
    rw [if_neg h1, if_neg h1]; rfl
  rw [if_neg h, if_neg h]
  clear h
  by_cases h : k = "stroke".toList
  · rw [if_pos h, if_pos h]
    cases readGradURL c.svg v st.linerColor with
    | some g => rfl
    | none => cases parseSVGColor v <;> rfl
  rw [if_neg h, if_neg h]
  clear h
  by_cases h : k = "stroke-linegap".toList
  · rw [if_pos h, if_pos h]
    cases gapOf v <;> rfl
  rw [if_neg h, if_neg h]
  clear h
  by_cases h : k = "stroke-leadlinecap".toList
  · rw [if_pos h, if_pos h]
    cases capOf v <;> rfl
  rw [if_neg h, if_neg h]
  clear h
  by_cases h : k = "stroke-linecap".toList
  · rw [if_pos h, if_pos h]
    cases capOf v <;> rfl
  rw [if_neg h, if_neg h]
  clear h
  by_cases h : k = "stroke-linejoin".toList
  · rw [if_pos h, if_pos h]
    cases joinOf v <;> rfl
  rw [if_neg h, if_neg h]
  clear h
  by_cases h : k = "stroke-miterlimit".toList
  · rw [if_pos h, if_pos h]
    cases (parseBasicFloat v : Res F) <;> rfl
  rw [if_neg h, if_neg h]
  clear h
  by_cases h : k = "stroke-width".toList
  · rw [if_pos h, if_pos h]
    cases resolveUnit c.svg.viewBox v .width <;> rfl
  rw [if_neg h, if_neg h]
  clear h
  by_cases h : k = "stroke-dashoffset".toList
  · rw [if_pos h, if_pos h]
    cases resolveUnit c.svg.viewBox v .diag <;> rfl
  rw [if_neg h, if_neg h]
  clear h
  by_cases h : k = "stroke-dasharray".toList
  · rw [if_pos h, if_pos h]
    by_cases h1 : v ≠ "none".toList
    · rw [if_pos h1, if_pos h1]
      cases parseDashes c.svg.viewBox (splitOnCommaOrSpace v) <;> rfl
    rw [if_neg h1, if_neg h1]; rfl
  rw [if_neg h, if_neg h]
  clear h
  by_cases h : k = "opacity".toList ∨ k = "stroke-opacity".toList ∨ k = "fill-opacity".toList
  · rw [if_pos h, if_pos h]
    cases (parseBasicFloat v : Res F) <;> rfl
  rw [if_neg h, if_neg h]
  clear h
  by_cases h : k = "transform".toList
  · rw [if_pos h, if_pos h]
    rfl
  rw [if_neg h, if_neg h]
  clear h
  by_cases h : k = "mask".toList
  · rw [if_pos h, if_pos h]
    rfl
  rw [if_neg h, if_neg h]
  clear h
  rfl

/-! ### Transforms -/

/-- The cursor with other numbers in its list. -/
def setPoints (ps : List F) (c : Cursor F) : Cursor F := { c with pc := { c.pc with points := ps } }

theorem onPath_getPoints (s : Str) : ∃ (b : Bool) (ps : List F), ∀ c : Cursor F,
    onPath (getPoints s) c = (if b then .ok () else .err .badFloat, setPoints ps c) := by
  obtain ⟨b, ps, h⟩ := getPoints_frame (F := F) s
  exact ⟨b, ps, fun c => by unfold onPath; rw [h]; rfl⟩

theorem readTransformAttr_tame (m : Matrix2D F) (k : Str) (ps : List F) : (readTransformAttr m k ps).Tame := by
  unfold readTransformAttr
  dsimp only
  repeat' split
  all_goals trivial

theorem transformLoop_blank {item : Str} (h : trimSpace item = []) (m : Matrix2D F) (rest : List Str) :
    transformLoop m (item :: rest) = transformLoop m rest := by
  rw [transformLoop]; exact if_pos h

theorem transformLoop_item {item : Str} (h : trimSpace item ≠ []) (m : Matrix2D F) (rest : List Str) :
    transformLoop m (item :: rest) = match split '(' (trimSpace item) with
      | [name, args] =>
        if args = [] then throw .paramMismatch
        else (do
          onPath (getPoints args)
          let c ← get
          let m1 ← lift (readTransformAttr m (toLower (trimSpace name)) c.pc.points)
          transformLoop m1 rest)
      | _ => throw .paramMismatch := by
  rw [transformLoop]; exact if_neg h

/-- Reading transforms depends on the starting matrix only and touches the number list only. -/
theorem transformLoop_frame (items : List Str) : ∀ m : Matrix2D F, ∃ (r : Res (Matrix2D F)) (g : List F → List F), r.Tame ∧
    ∀ c, transformLoop m items c = (r, setPoints (g c.pc.points) c) := by
  induction items with
  | nil => intro m; exact ⟨.ok m, id, trivial, fun c => rfl⟩
  | cons item rest ih =>
    intro m
    by_cases h : trimSpace item = []
    · rw [transformLoop_blank h]; exact ih m
    rw [transformLoop_item h]
    split
    · rename_i name args _
      by_cases h1 : args = []
      · rw [if_pos h1]; exact ⟨.err .paramMismatch, id, trivial, fun c => rfl⟩
      rw [if_neg h1]
      obtain ⟨b, ps, hp⟩ := onPath_getPoints (F := F) args
      cases b with
      | false => exact ⟨.err .badFloat, fun _ => ps, trivial, fun c => by rw [SM.bind_run, hp]; rfl⟩
      | true =>
        have ht := readTransformAttr_tame m (toLower (trimSpace name)) ps
        cases hr : readTransformAttr m (toLower (trimSpace name)) ps with
        | ok m' =>
          obtain ⟨r, g, htame, hg⟩ := ih m'
          refine ⟨r, fun _ => g ps, htame, fun c => ?_⟩
          rw [SM.bind_run, hp]
          simp only [if_true, SM.bind_run, SM.get_run, SM.lift_run]
          rw [show (setPoints ps c).pc.points = ps from rfl, hr]
          exact hg (setPoints ps c)
        | err e =>
          refine ⟨.err e, fun _ => ps, trivial, fun c => ?_⟩
          rw [SM.bind_run, hp]
          simp only [if_true, SM.bind_run, SM.get_run, SM.lift_run]
          rw [show (setPoints ps c).pc.points = ps from rfl, hr]
        | panic e => rw [hr] at ht; exact ht.elim
        | diverge => rw [hr] at ht; exact ht.elim
    · exact ⟨.err .paramMismatch, id, trivial, fun c => rfl⟩

theorem parseTransform_frame (v : Str) (m : Matrix2D F) : ∃ (r : Res (Matrix2D F)) (g : List F → List F), r.Tame ∧
    ∀ (c : Cursor F) top rest, c.styleStack = top :: rest → top.transform = m →
      parseTransform v c = (r, setPoints (g c.pc.points) c) := by
  obtain ⟨r, g, h1, h2⟩ := transformLoop_frame (split ')' v).reverse m
  refine ⟨r, g, h1, fun c top rest hs hm => ?_⟩
  rw [parseTransform, SM.bind_run, SM.get_run]
  simp only [hs, hm]
  exact h2 c

/-! ### Declarations -/

/-- The declaration in a piece of text. -/
def declOf (pair : Str) : Option (Str × Str) :=
  match split ':' pair with
  | k :: v :: _ => some (trimSpace (toLower k), trimSpace v)
  | _ => none

/-- The declarations of an attribute list, in the order in which they take effect. -/
def decls (attrs : List Attr) : List (Str × Str) := (stylePairs attrs).filterMap declOf

/-- The declarations of a list, one after the other. -/
def declLoop (st : PathStyle F) : List (Str × Str) → CM F (PathStyle F)
  | [] => pure st
  | d :: ds => do
    let st ← readStyleAttr st d.1 d.2
    declLoop st ds

theorem pairsLoop_decls (pairs : List Str) : ∀ st : PathStyle F, pairsLoop st pairs = declLoop st (pairs.filterMap declOf) := by
  induction pairs with
  | nil => intro st; rfl
  | cons p ps ih =>
    intro st
    rw [pairsLoop, List.filterMap_cons]
    split
    · rename_i k v tl h
      rw [show declOf p = some (trimSpace (toLower k), trimSpace v) by rw [declOf, h]]
      simp only [declLoop, ih]
    · rename_i h
      rw [show declOf p = none by
        rw [declOf]
        split
        · rename_i k v tl h'; exact absurd h' (h k v tl)
        · rfl]
      exact ih st

theorem pushStyle_decls (attrs : List Attr) (c : Cursor F) : pushStyle attrs c = match c.styleStack with
    | [] => (.panic .styleStack, c)
    | top :: _ => (do
        let st ← declLoop top (decls attrs)
        modify fun c => { c with styleStack := st :: c.styleStack } : CM F Unit) c := by
  rw [pushStyle, SM.bind_run, SM.get_run]
  dsimp only
  cases c.styleStack with
  | nil => rfl
  | cons top rest => simp only [pairsLoop_decls]; rfl

/-! ### Which parts of a style a declaration may change -/

/-- `st'` differs from `st` only in what the property `k` is about. -/
structure Only (k : Str) (st st' : PathStyle F) : Prop where
  fillOpacity : k ≠ "opacity".toList → k ≠ "fill-opacity".toList → st'.fillOpacity = st.fillOpacity
  lineOpacity : k ≠ "opacity".toList → k ≠ "stroke-opacity".toList → st'.lineOpacity = st.lineOpacity
  lineWidth : k ≠ "stroke-width".toList → st'.lineWidth = st.lineWidth
  winding : k ≠ "fill-rule".toList → st'.useNonZeroWinding = st.useNonZeroWinding
  miterLimit : k ≠ "stroke-miterlimit".toList → st'.join.miterLimit = st.join.miterLimit
  lineJoin : k ≠ "stroke-linejoin".toList → st'.join.lineJoin = st.join.lineJoin
  trailLineCap : k ≠ "stroke-linecap".toList → st'.join.trailLineCap = st.join.trailLineCap
  leadLineCap : k ≠ "stroke-leadlinecap".toList → st'.join.leadLineCap = st.join.leadLineCap
  lineGap : k ≠ "stroke-linegap".toList → st'.join.lineGap = st.join.lineGap
  dash : k ≠ "stroke-dasharray".toList → st'.dash.dash = st.dash.dash
  dashOffset : k ≠ "stroke-dashoffset".toList → st'.dash.dashOffset = st.dash.dashOffset
  filler : k ≠ "fill".toList → st'.fillerColor = st.fillerColor
  liner : k ≠ "stroke".toList → st'.linerColor = st.linerColor
  masks : k ≠ "mask".toList → st'.masks = st.masks
  transform : k ≠ "transform".toList → st'.transform = st.transform

theorem only_refl (k : Str) (st : PathStyle F) : Only k st st := by constructor <;> intros <;> rfl

theorem res_map_inv {α β : Type} {r : Res α} {f : α → β} {b : β} (h : (do let x ← r; Res.ok (f x)) = .ok b) :
    ∃ a, r = .ok a ∧ f a = b := by
  cases r with
  | ok a => exact ⟨a, rfl, by simpa using h⟩
  | err e => simp at h
  | panic e => simp at h
  | diverge => simp at h

macro "only" : tactic => `(tactic| (constructor <;> intros <;> first | rfl | (exfalso; simp_all; done)))

theorem styleEff_only {svg : Svg F} {st st' : PathStyle F} {k v : Str} (h : styleEff svg st k v = .set (.ok st')) :
    Only k st st' := by
  unfold styleEff at h
  by_cases h1 : k = "fill".toList
  · rw [if_pos h1] at h
    split at h
    · simp only [Eff.set.injEq, Res.ok.injEq] at h
      subst h; subst h1; only
    · rw [Eff.set.injEq] at h
      obtain ⟨a, -, h⟩ := res_map_inv h
      subst h; subst h1; only
  rw [if_neg h1] at h
  clear h1
  by_cases h1 : k = "fill-rule".toList
  · rw [if_pos h1] at h
    split at h
    · simp only [Eff.set.injEq, Res.ok.injEq] at h
      subst h; subst h1; only
    · split at h
      · simp only [Eff.set.injEq, Res.ok.injEq] at h
        subst h; subst h1; only
      · simp at h
  rw [if_neg h1] at h
  clear h1
  by_cases h1 : k = "stroke".toList
  · rw [if_pos h1] at h
    split at h
    · simp only [Eff.set.injEq, Res.ok.injEq] at h
      subst h; subst h1; only
    · rw [Eff.set.injEq] at h
      obtain ⟨a, -, h⟩ := res_map_inv h
      subst h; subst h1; only
  rw [if_neg h1] at h
  clear h1
  by_cases h1 : k = "stroke-linegap".toList
  · rw [if_pos h1] at h
    cases hc : gapOf v with
    | some g =>
      rw [hc] at h
      simp only [Eff.set.injEq, Res.ok.injEq] at h
      subst h; subst h1; only
    | none => rw [hc] at h; simp at h
  rw [if_neg h1] at h
  clear h1
  by_cases h1 : k = "stroke-leadlinecap".toList
  · rw [if_pos h1] at h
    cases hc : capOf v with
    | some g =>
      rw [hc] at h
      simp only [Eff.set.injEq, Res.ok.injEq] at h
      subst h; subst h1; only
    | none => rw [hc] at h; simp at h
  rw [if_neg h1] at h
  clear h1
  by_cases h1 : k = "stroke-linecap".toList
  · rw [if_pos h1] at h
    cases hc : capOf v with
    | some g =>
      rw [hc] at h
      simp only [Eff.set.injEq, Res.ok.injEq] at h
      subst h; subst h1; only
    | none => rw [hc] at h; simp at h
  rw [if_neg h1] at h
  clear h1
  by_cases h1 : k = "stroke-linejoin".toList
  · rw [if_pos h1] at h
    cases hc : joinOf v with
    | some g =>
      rw [hc] at h
      simp only [Eff.set.injEq, Res.ok.injEq] at h
      subst h; subst h1; only
    | none => rw [hc] at h; simp at h
  rw [if_neg h1] at h
  clear h1
  by_cases h1 : k = "stroke-miterlimit".toList
  · rw [if_pos h1] at h
    rw [Eff.set.injEq] at h
    obtain ⟨a, -, h⟩ := res_map_inv h
    subst h; subst h1; only
  rw [if_neg h1] at h
  clear h1
  by_cases h1 : k = "stroke-width".toList
  · rw [if_pos h1] at h
    rw [Eff.set.injEq] at h
    obtain ⟨a, -, h⟩ := res_map_inv h
    subst h; subst h1; only
  rw [if_neg h1] at h
  clear h1
  by_cases h1 : k = "stroke-dashoffset".toList
  · rw [if_pos h1] at h
    rw [Eff.set.injEq] at h
    obtain ⟨a, -, h⟩ := res_map_inv h
    subst h; subst h1; only
  rw [if_neg h1] at h
  clear h1
  by_cases h1 : k = "stroke-dasharray".toList
  · rw [if_pos h1] at h
    split at h
    · rw [Eff.set.injEq] at h
      obtain ⟨a, -, h⟩ := res_map_inv h
      subst h; subst h1; only
    · simp only [Eff.set.injEq, Res.ok.injEq] at h
      subst h; exact only_refl k st
  rw [if_neg h1] at h
  clear h1
  by_cases h1 : k = "opacity".toList ∨ k = "stroke-opacity".toList ∨ k = "fill-opacity".toList
  · rw [if_pos h1, Eff.set.injEq] at h
    obtain ⟨a, -, h⟩ := res_map_inv h
    subst h
    rcases h1 with h1 | h1 | h1 <;> subst h1 <;> only
  rw [if_neg h1] at h
  clear h1
  by_cases h1 : k = "transform".toList
  · rw [if_pos h1] at h
    simp at h
  rw [if_neg h1] at h
  clear h1
  by_cases h1 : k = "mask".toList
  · rw [if_pos h1] at h
    simp at h
  rw [if_neg h1] at h
  clear h1
  simp only [Eff.set.injEq, Res.ok.injEq] at h
  subst h; exact only_refl k st

/-- Only `transform` and `mask` do more than set a value or report one. -/
theorem styleEff_kind (svg : Svg F) (st : PathStyle F) (k v : Str) : (∃ r, styleEff svg st k v = .set r) ∨
    styleEff svg st k v = .warn (.unsupportedValue k v) ∨
    (styleEff svg st k v = .transform ∧ k = "transform".toList) ∨ (styleEff svg st k v = .mask ∧ k = "mask".toList) := by
  unfold styleEff
  by_cases h1 : k = "fill".toList
  · rw [if_pos h1]
    split
    · exact .inl ⟨_, rfl⟩
    · exact .inl ⟨_, rfl⟩
  rw [if_neg h1]
  clear h1
  by_cases h1 : k = "fill-rule".toList
  · rw [if_pos h1]
    split
    · exact .inl ⟨_, rfl⟩
    · split
      · exact .inl ⟨_, rfl⟩
      · exact .inr (.inl rfl)
  rw [if_neg h1]
  clear h1
  by_cases h1 : k = "stroke".toList
  · rw [if_pos h1]
    split
    · exact .inl ⟨_, rfl⟩
    · exact .inl ⟨_, rfl⟩
  rw [if_neg h1]
  clear h1
  by_cases h1 : k = "stroke-linegap".toList
  · rw [if_pos h1]
    split
    · exact .inl ⟨_, rfl⟩
    · exact .inr (.inl rfl)
  rw [if_neg h1]
  clear h1
  by_cases h1 : k = "stroke-leadlinecap".toList
  · rw [if_pos h1]
    split
    · exact .inl ⟨_, rfl⟩
    · exact .inr (.inl rfl)
  rw [if_neg h1]
  clear h1
  by_cases h1 : k = "stroke-linecap".toList
  · rw [if_pos h1]
    split
    · exact .inl ⟨_, rfl⟩
    · exact .inr (.inl rfl)
  rw [if_neg h1]
  clear h1
  by_cases h1 : k = "stroke-linejoin".toList
  · rw [if_pos h1]
    split
    · exact .inl ⟨_, rfl⟩
    · exact .inr (.inl rfl)
  rw [if_neg h1]
  clear h1
  by_cases h1 : k = "stroke-miterlimit".toList
  · rw [if_pos h1]
    exact .inl ⟨_, rfl⟩
  rw [if_neg h1]
  clear h1
  by_cases h1 : k = "stroke-width".toList
  · rw [if_pos h1]
    exact .inl ⟨_, rfl⟩
  rw [if_neg h1]
  clear h1
  by_cases h1 : k = "stroke-dashoffset".toList
  · rw [if_pos h1]
    exact .inl ⟨_, rfl⟩
  rw [if_neg h1]
  clear h1
  by_cases h1 : k = "stroke-dasharray".toList
  · rw [if_pos h1]
    split
    · exact .inl ⟨_, rfl⟩
    · exact .inl ⟨_, rfl⟩
  rw [if_neg h1]
  clear h1
  by_cases h1 : k = "opacity".toList ∨ k = "stroke-opacity".toList ∨ k = "fill-opacity".toList
  · rw [if_pos h1]
    exact .inl ⟨_, rfl⟩
  rw [if_neg h1]
  clear h1
  by_cases h1 : k = "transform".toList
  · rw [if_pos h1]
    exact .inr (.inr (.inl ⟨rfl, h1⟩))
  rw [if_neg h1]
  clear h1
  by_cases h1 : k = "mask".toList
  · rw [if_pos h1]
    exact .inr (.inr (.inr ⟨rfl, h1⟩))
  rw [if_neg h1]
  clear h1
  exact .inl ⟨_, rfl⟩

theorem styleEff_transform {svg : Svg F} {st : PathStyle F} {k v : Str} : styleEff svg st k v = .transform ↔ k = "transform".toList := by
  constructor
  · intro h
    rcases styleEff_kind svg st k v with ⟨r, h'⟩ | h' | h' | h'
    · rw [h] at h'; simp at h'
    · rw [h] at h'; simp at h'
    · exact h'.2
    · rw [h] at h'; simp at h'
  · rintro rfl
    rfl

theorem styleEff_mask {svg : Svg F} {st : PathStyle F} {k v : Str} : styleEff svg st k v = .mask ↔ k = "mask".toList := by
  constructor
  · intro h
    rcases styleEff_kind svg st k v with ⟨r, h'⟩ | h' | h' | h'
    · rw [h] at h'; simp at h'
    · rw [h] at h'; simp at h'
    · rw [h] at h'; simp at h'
    · exact h'.2
  · rintro rfl
    rfl

theorem readStyleAttr_only {st st' : PathStyle F} {k v : Str} {c c' : Cursor F} (h : readStyleAttr st k v c = (.ok st', c')) :
    Only k st st' := by
  rw [readStyleAttr_eff] at h
  cases he : styleEff c.svg st k v with
  | set r =>
    rw [he] at h
    simp only [runEff, SM.lift_run, Prod.mk.injEq] at h
    rw [h.1] at he
    exact styleEff_only he
  | warn m =>
    rw [he, runEff, SM.bind_run] at h
    split at h <;> simp at h
    rw [← h.1]; exact only_refl k st
  | transform =>
    have hk := styleEff_transform.1 he
    rw [he, runEff, SM.bind_run] at h
    split at h <;> simp at h
    rw [← h.1]; subst hk; only
  | mask =>
    have hk := styleEff_mask.1 he
    rw [he, runEff, SM.bind_run, SM.lift_run] at h
    split at h <;> simp [addMask] at h
    rw [← h.1]; subst hk; only

/-! ### Frames -/

/-- What reading declarations may change: the number list, the log in warn mode, and the memory of the mask lists. -/
structure StyleR (c c' : Cursor F) : Prop where
  eq : c' = { c with pc := { c.pc with points := c'.pc.points, log := c'.pc.log }, svg := { c.svg with arrays := c'.svg.arrays } }
  log : ∃ d, c'.pc.log = c.pc.log ++ d ∧ (c.pc.errorMode ≠ .warn → d = [])

theorem styleR_refl (c : Cursor F) : StyleR c c := ⟨rfl, [], by simp, fun _ => rfl⟩

theorem styleR_trans {c d e : Cursor F} (h1 : StyleR c d) (h2 : StyleR d e) : StyleR c e := by
  obtain ⟨a1, d1, a2, a3⟩ := h1
  obtain ⟨b1, d2, b2, b3⟩ := h2
  have hm : d.pc.errorMode = c.pc.errorMode := by rw [a1]
  refine ⟨?_, d1 ++ d2, by rw [b2, a2, List.append_assoc], fun h => ?_⟩
  · rw [b1, a1]
  · rw [a3 h, b3 (by rw [hm]; exact h)]; rfl

theorem styleR_points (ps : List F) (c : Cursor F) : StyleR c (setPoints ps c) := ⟨rfl, [], by simp [setPoints], fun _ => rfl⟩

theorem handleError_styleR (m : Msg) (c : Cursor F) : StyleR c (handleError m c).2 := by
  unfold handleError
  split
  · exact styleR_refl c
  · split
    · rename_i h
      exact ⟨rfl, [m], rfl, fun h' => absurd h h'⟩
    · exact styleR_refl c

theorem readStyleAttr_styleR (st : PathStyle F) (k v : Str) (c : Cursor F) : StyleR c (readStyleAttr st k v c).2 := by
  rw [readStyleAttr_eff]
  cases styleEff c.svg st k v with
  | set r => exact styleR_refl c
  | warn m =>
    have h := handleError_styleR m c
    rw [runEff, SM.bind_run]
    split <;> simp_all
  | transform =>
    rw [runEff, SM.bind_run]
    cases hs : c.styleStack with
    | nil =>
      rw [show parseTransform v c = (.panic .styleStack, c) by rw [parseTransform, SM.bind_run, SM.get_run]; simp only [hs]; rfl]
      exact styleR_refl c
    | cons top rest =>
      obtain ⟨r, g, h1, h2⟩ := parseTransform_frame (F := F) v top.transform
      rw [h2 c top rest hs rfl]
      cases r <;> exact styleR_points _ c
  | mask =>
    rw [runEff, SM.bind_run, SM.lift_run]
    cases parseSelector v with
    | ok id => exact ⟨rfl, [], (List.append_nil _).symm, fun _ => rfl⟩
    | err e => exact styleR_refl c
    | panic e => exact styleR_refl c
    | diverge => exact styleR_refl c

theorem declLoop_styleR (ds : List (Str × Str)) : ∀ (st : PathStyle F) (c : Cursor F), StyleR c (declLoop st ds c).2 := by
  induction ds with
  | nil => intro st c; exact styleR_refl c
  | cons d ds ih =>
    intro st c
    have h := readStyleAttr_styleR st d.1 d.2 c
    rw [declLoop, SM.bind_run]
    cases hr : readStyleAttr st d.1 d.2 c with
    | mk r c1 =>
      rw [hr] at h
      cases r with
      | ok st1 => exact styleR_trans h (ih st1 c1)
      | err e => exact h
      | panic e => exact h
      | diverge => exact h

/-- `pushStyle` puts one style on the stack, or fails and leaves the stack alone. -/
theorem pushStyle_frame (attrs : List Attr) (c : Cursor F) :
    ((∃ top rest st c1, c.styleStack = top :: rest ∧ declLoop top (decls attrs) c = (.ok st, c1) ∧ StyleR c c1 ∧
      pushStyle attrs c = (.ok (), { c1 with styleStack := st :: c.styleStack }))) ∨
    ((∀ u, (pushStyle attrs c).1 ≠ .ok u) ∧ StyleR c (pushStyle attrs c).2) := by
  rw [pushStyle_decls]
  cases hs : c.styleStack with
  | nil => exact .inr ⟨by simp, styleR_refl c⟩
  | cons top rest =>
    have h := declLoop_styleR (decls attrs) top c
    dsimp only
    rw [SM.bind_run]
    cases hr : declLoop top (decls attrs) c with
    | mk r c1 =>
      rw [hr] at h
      cases r with
      | ok st =>
        refine .inl ⟨top, rest, st, c1, rfl, hr, h, ?_⟩
        have : c1.styleStack = top :: rest := by rw [show c1.styleStack = c.styleStack by have := h.eq; dsimp only at this; rw [this], hs]
        simp [this]
      | err e => exact .inr ⟨by simp, h⟩
      | panic e => exact .inr ⟨by simp, h⟩
      | diverge => exact .inr ⟨by simp, h⟩

end GoSvg
