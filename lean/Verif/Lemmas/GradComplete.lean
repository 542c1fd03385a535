import Verif.Lemmas.Gradients

/-! Gradients in styles are complete. -/

set_option linter.unusedSectionVars false

namespace GoSvg

open Spec

variable {F : Type} [GoFloat F] [GoEnv]

open SM (get modify throw lift panic diverge forEach)

/-- A paint without gaps. -/
def PatternOK (p : Option (Pattern F)) : Prop :=
  ∀ g, p = some (.gradient g) → g.direction.isSome = true ∧ ∀ s ∈ g.stops, s.stopColor.isSome = true

def StyleOK (st : PathStyle F) : Prop := PatternOK st.fillerColor ∧ PatternOK st.linerColor

/-- Every style that is or may come into the drawing is without gaps. -/
structure ShownOK (c : Cursor F) : Prop where
  stack : ∀ st ∈ c.styleStack, StyleOK st
  paths : ∀ p ∈ c.svg.svgPaths, StyleOK p.style
  masks : ∀ id mk, c.svg.svgMasks.find id = some mk → ∀ p ∈ mk.svgPaths, StyleOK p.style
  mask : ∀ mk, c.mask = some mk → ∀ p ∈ mk.svgPaths, StyleOK p.style

/-- Every gradient has its direction. -/
def Directed (c : Cursor F) : Prop := ∀ g ∈ c.svg.gradHeap, g.direction.isSome = true

/-- The run came through. -/
def Res.isOk {α : Type} : Res α → Bool
  | .ok _ => true
  | _ => false

/-- Runs that keep this; after a failure a gradient may be left without a direction. -/
def Paints {α : Type} (m : CM F α) : Prop :=
  ∀ c, ShownOK c → Directed c → ShownOK (m c).2 ∧ ((m c).1.isOk = true → Directed (m c).2)

theorem paints_bind {α β : Type} {m : CM F α} {f : α → CM F β} (h1 : Paints m) (h2 : ∀ a, Paints (f a)) : Paints (m >>= f) := by
  intro c hs hd
  have h1 := h1 c hs hd
  rw [SM.bind_run]
  rcases hr : m c with ⟨r, d⟩
  rw [hr] at h1
  cases r with
  | ok a => exact h2 a d h1.1 (h1.2 rfl)
  | err e => exact ⟨h1.1, fun h => by cases h⟩
  | panic s => exact ⟨h1.1, fun h => by cases h⟩
  | diverge => exact ⟨h1.1, fun h => by cases h⟩

/-- Runs that leave alone what matters. -/
structure PaintSame (c c' : Cursor F) : Prop where
  stack : c'.styleStack = c.styleStack
  paths : c'.svg.svgPaths = c.svg.svgPaths
  masks : c'.svg.svgMasks = c.svg.svgMasks
  mask : c'.mask = c.mask
  heap : c'.svg.gradHeap = c.svg.gradHeap

theorem paintSame_shown {c c' : Cursor F} (h : PaintSame c c') (hc : ShownOK c) : ShownOK c' :=
  ⟨by rw [h.stack]; exact hc.stack, by rw [h.paths]; exact hc.paths, by rw [h.masks]; exact hc.masks, by rw [h.mask]; exact hc.mask⟩

theorem paints_same {α : Type} {m : CM F α} (h : Keeps PaintSame m) : Paints m := by
  intro c hs hd
  exact ⟨paintSame_shown (h c) hs, fun _ => by unfold Directed; rw [(h c).heap]; exact hd⟩

theorem paints_pure {α : Type} (a : α) : Paints (pure a : CM F α) := fun _ hs hd => ⟨hs, fun _ => hd⟩
theorem paints_lift {α : Type} (r : Res α) : Paints (lift r : CM F α) := fun _ hs hd => ⟨hs, fun _ => hd⟩
theorem paints_get : Paints (get : CM F (Cursor F)) := fun _ hs hd => ⟨hs, fun _ => hd⟩

theorem styleR_paint {c c' : Cursor F} (h : StyleR c c') : PaintSame c c' := by rw [h.eq]; exact ⟨rfl, rfl, rfl, rfl, rfl⟩

theorem readGradURL_ok {svg : Svg F} {v : Str} {p : Option (Pattern F)} {g : Gradient F} (hd : ∀ g ∈ svg.gradHeap, g.direction.isSome = true)
    (h : readGradURL svg v p = some g) : PatternOK (some (.gradient g)) := by
  unfold readGradURL at h
  split at h
  · split at h
    · split at h
      · rename_i addr _
        cases hg : svg.gradHeap[addr]? with
        | none => rw [hg] at h; cases h
        | some g0 =>
          rw [hg] at h
          cases h
          rintro g' ⟨⟩
          dsimp only
          rw [localize_eq]
          refine ⟨hd g0 (List.mem_of_getElem? hg), fun s hs => ?_⟩
          obtain ⟨s0, -, rfl⟩ := List.mem_map.1 hs
          rfl
      · cases h
    · cases h
  · cases h

theorem plain_ok (c : Option Color) : PatternOK (F := F) (c.map .plain) := by
  intro g h
  cases c <;> cases h

theorem readStyleAttr_ok {st st' : PathStyle F} {k v : Str} {c c' : Cursor F} (hd : Directed c) (hs : StyleOK st)
    (h : readStyleAttr st k v c = (.ok st', c')) : StyleOK st' := by
  have ho := readStyleAttr_only h
  constructor
  · by_cases hk : k = "fill".toList
    · subst hk
      rw [readStyleAttr_eff] at h
      unfold styleEff at h
      rw [if_pos rfl] at h
      cases hg : readGradURL c.svg v st.fillerColor with
      | some g => rw [hg] at h; cases h; exact readGradURL_ok hd hg
      | none =>
        rw [hg] at h
        simp only [runEff, SM.lift_run, Prod.mk.injEq] at h
        obtain ⟨col, -, rfl⟩ := res_map_inv h.1
        exact plain_ok col
    · rw [ho.filler hk]; exact hs.1
  · by_cases hk : k = "stroke".toList
    · subst hk
      rw [readStyleAttr_eff] at h
      unfold styleEff at h
      rw [if_neg (by decide), if_neg (by decide), if_pos rfl] at h
      cases hg : readGradURL c.svg v st.linerColor with
      | some g => rw [hg] at h; cases h; exact readGradURL_ok hd hg
      | none =>
        rw [hg] at h
        simp only [runEff, SM.lift_run, Prod.mk.injEq] at h
        obtain ⟨col, -, rfl⟩ := res_map_inv h.1
        exact plain_ok col
    · rw [ho.liner hk]; exact hs.2

theorem declLoop_ok (ds : List (Str × Str)) : ∀ {st st' : PathStyle F} {c c' : Cursor F}, Directed c → StyleOK st →
    declLoop st ds c = (.ok st', c') → StyleOK st' := by
  induction ds with
  | nil => intro st st' c c' _ hs h; cases h; exact hs
  | cons d ds ih =>
    intro st st' c c' hd hs h
    rw [declLoop] at h
    obtain ⟨st1, c1, h1, h2⟩ := bind_inv h
    have hS := readStyleAttr_styleR st d.1 d.2 c
    rw [h1] at hS
    exact ih (by unfold Directed; rw [(styleR_paint hS).heap]; exact hd) (readStyleAttr_ok hd hs h1) h2

theorem pushStyle_paints (attrs : List Attr) : Paints (pushStyle attrs : CM F Unit) := by
  intro c hs hd
  rcases pushStyle_frame attrs c with ⟨top, rest, st, c1, h1, h2, h3, h4⟩ | ⟨-, h⟩
  · rw [h4]
    have hp := styleR_paint h3
    have hsh := paintSame_shown hp hs
    refine ⟨⟨?_, hsh.paths, hsh.masks, hsh.mask⟩, fun _ => ?_⟩
    · intro x hx
      rcases List.mem_cons.1 hx with rfl | hx
      · exact declLoop_ok _ hd (hs.stack top (by rw [h1]; exact List.mem_cons_self)) h2
      · exact hs.stack x hx
    · unfold Directed; dsimp only; rw [hp.heap]; exact hd
  · exact ⟨paintSame_shown (styleR_paint h) hs, fun _ => by unfold Directed; rw [(styleR_paint h).heap]; exact hd⟩

theorem popStyle_paints : Paints (popStyle : CM F Unit) := by
  intro c hs hd
  unfold popStyle
  cases hst : c.styleStack with
  | nil => exact ⟨hs, fun _ => hd⟩
  | cons st rest =>
    refine ⟨⟨?_, hs.paths, hs.masks, hs.mask⟩, fun _ => hd⟩
    intro x hx
    exact hs.stack x (by rw [hst]; exact List.mem_cons_of_mem _ hx)

theorem handleError_paints (m : Msg) : Paints (handleError m : CM F Unit) :=
  paints_same fun c => styleR_paint (handleError_styleR m c)

theorem gradR_shown {c c' : Cursor F} (h : GradR c c') (hc : ShownOK c) : ShownOK c' := by
  have e := h.eq
  generalize c'.pc.points = a at e
  generalize c'.svg.grads = b at e
  generalize c'.svg.gradHeap = d at e
  generalize c'.grad = f at e
  generalize c'.inGrad = g at e
  subst e
  exact ⟨hc.stack, hc.paths, hc.masks, hc.mask⟩

theorem modifyGrad_directed {f : Gradient F → Gradient F} (hf : ∀ g, (f g).direction = g.direction) {c : Cursor F} (hd : Directed c) :
    Directed (modifyGrad f c).2 := by
  unfold modifyGrad
  cases c.grad with
  | none => exact hd
  | some addr =>
    intro g hg
    dsimp only at hg
    obtain ⟨i, hi⟩ := List.getElem?_of_mem hg
    rw [List.getElem?_modify] at hi
    cases hx : c.svg.gradHeap[i]? with
    | none => rw [hx] at hi; cases hi
    | some x =>
      rw [hx] at hi
      have hm := hd x (List.mem_of_getElem? hx)
      simp only [Option.map_eq_map, Option.map_some, Option.some.injEq] at hi
      split at hi
      · rw [← hi, hf]; exact hm
      · rw [← hi]; exact hm

theorem started_directed {name : Str} {attrs : List Attr} {c c' : Cursor F} (h : GradStarted name attrs c c') (hd : Directed c) : Directed c' := by
  obtain ⟨g, h1, ⟨d, h2⟩, -⟩ := h.heap
  intro x hx
  rw [h1] at hx
  rcases List.mem_append.1 hx with hx | hx
  · exact hd x hx
  · simp only [List.mem_singleton] at hx
    rw [hx, h2]; rfl

theorem stopF_paints (attrs : List Attr) : Paints (stopF attrs : CM F Unit) := by
  intro c hs hd
  refine ⟨gradR_shown (stopF_keeps attrs c) hs, fun _ => ?_⟩
  unfold stopF
  rw [SM.bind_run, SM.get_run]
  dsimp only
  split
  · rw [SM.bind_run, SM.lift_run]
    cases Res.loop stopAttr (⟨none, num 0, num 1⟩ : GradStop F) (appendStyleAttrs attrs ["stop-color".toList, "stop-opacity".toList]) with
    | ok st => exact modifyGrad_directed (f := fun g => { g with stops := g.stops ++ [st] }) (fun _ => rfl) hd
    | err e => exact hd
    | panic e => exact hd
    | diverge => exact hd
  · exact hd

theorem isOk_run {α : Type} {p : Res α × Cursor F} (h : p.1.isOk = true) : ∃ a, p = (.ok a, p.2) := by
  obtain ⟨r, c⟩ := p
  cases r with
  | ok a => exact ⟨a, rfl⟩
  | err e => cases h
  | panic e => cases h
  | diverge => cases h

theorem draw_paints {fuel : Nat} {use : List Attr → CM F Unit} {tag : Str} {df : List Attr → CM F Unit} (hu : ∀ attrs, Paints (use attrs))
    (h : drawFuncs fuel use tag = some df) (attrs : List Attr) : Paints (df attrs) := by
  rcases drawFuncs_cases h with ⟨-, h⟩ | ⟨-, rfl⟩ | ⟨-, rfl⟩ | ⟨-, rfl⟩ | ⟨-, rfl⟩ | ⟨-, rfl⟩ | ⟨-, rfl⟩ | ⟨-, rfl⟩ | ⟨-, rfl⟩ |
    ⟨-, rfl⟩ | ⟨-, rfl⟩
  · exact paints_same fun c => by rw [(h attrs c).eq]; exact ⟨rfl, rfl, rfl, rfl, rfl⟩
  · exact paints_same fun c => by rw [(svgF_keeps attrs c).eq]; exact ⟨rfl, rfl, rfl, rfl, rfl⟩
  · exact paints_pure _
  · exact stopF_paints attrs
  · exact paints_same fun c => ⟨rfl, rfl, rfl, rfl, rfl⟩
  · exact paints_same fun c => ⟨rfl, rfl, rfl, rfl, rfl⟩
  · exact paints_same fun c => ⟨rfl, rfl, rfl, rfl, rfl⟩
  · intro c hs hd
    refine ⟨gradR_shown (linearGradientF_keeps attrs c) hs, fun hok => ?_⟩
    obtain ⟨u, hr⟩ := isOk_run hok
    exact started_directed (linearGradientF_ok hr) hd
  · intro c hs hd
    refine ⟨gradR_shown (radialGradientF_keeps attrs c) hs, fun hok => ?_⟩
    obtain ⟨u, hr⟩ := isOk_run hok
    exact started_directed (radialGradientF_ok hr) hd
  · unfold maskF
    refine paints_bind paints_get fun _ => paints_bind (paints_lift _) fun v => ?_
    intro c hs hd
    refine ⟨⟨hs.stack, hs.paths, hs.masks, ?_⟩, fun _ => hd⟩
    rintro mk ⟨⟩ p hp
    cases hp
  · exact hu attrs

theorem useLoop_paints {draw : Str → Option (List Attr → CM F Unit)} (hd : ∀ tag df, draw tag = some df → ∀ attrs, Paints (df attrs)) :
    ∀ ds : List Definition, Paints (useLoop draw ds)
  | [] => paints_pure _
  | d :: ds => by
    rw [useLoop]
    split
    · exact paints_bind popStyle_paints fun _ => useLoop_paints hd ds
    · refine paints_bind (pushStyle_paints _) fun _ => ?_
      split
      · exact handleError_paints _
      · rename_i df hdf
        refine paints_bind (hd _ _ hdf _) fun _ => ?_
        split
        · exact paints_bind popStyle_paints fun _ => useLoop_paints hd ds
        · exact useLoop_paints hd ds

theorem useF_paints : ∀ (fuel : Nat) (attrs : List Attr), Paints (useF fuel attrs : CM F Unit)
  | 0, _ => fun _ hs hd => ⟨hs, fun _ => hd⟩
  | fuel + 1, attrs => by
    rw [useF]
    refine paints_bind paints_get fun c0 => paints_bind (paints_lift _) fun v => ?_
    have hb : Paints (useBody (drawFuncs fuel (useF fuel)) v.href : CM F Unit) := by
      intro c hs hd
      unfold useBody
      split
      · exact ⟨hs, fun h => by cases h⟩
      · split
        · dsimp only
          rw [SM.bind_run, SM.get_run]
          dsimp only
          cases c.svg.defs.find _ with
          | none => exact ⟨hs, fun _ => hd⟩
          | some ds => exact useLoop_paints (fun tag df h attrs => draw_paints (useF_paints fuel) h attrs) ds c hs hd
        · exact ⟨hs, fun _ => hd⟩
    intro c hs hd
    have := hb { c with pc := { c.pc with curX := v.x, curY := v.y } } ⟨hs.stack, hs.paths, hs.masks, hs.mask⟩ hd
    unfold withOffset
    dsimp only
    exact ⟨⟨this.1.stack, this.1.paths, this.1.masks, this.1.mask⟩, this.2⟩

theorem emit_shown {c c' : Cursor F} (h : Emit c c') (hs : ShownOK c) : ShownOK c' := by
  cases h with
  | nothing => exact hs
  | lost => exact ⟨hs.stack, hs.paths, hs.masks, hs.mask⟩
  | mask _ _ m hm st rest hst =>
    refine ⟨hs.stack, hs.paths, hs.masks, ?_⟩
    rintro mk ⟨⟩ p hp
    rcases List.mem_append.1 hp with hp | hp
    · exact hs.mask m hm p hp
    · simp only [List.mem_singleton] at hp
      rw [hp]; exact hs.stack st (by rw [hst]; exact List.mem_cons_self)
  | doc _ _ st rest hst =>
    refine ⟨hs.stack, ?_, hs.masks, hs.mask⟩
    intro p hp
    rcases List.mem_append.1 hp with hp | hp
    · exact hs.paths p hp
    · simp only [List.mem_singleton] at hp
      rw [hp]; exact hs.stack st (by rw [hst]; exact List.mem_cons_self)

theorem readStart_paints (fuel : Nat) (name : Str) (attrs : List Attr) : Paints (readStartElement fuel name attrs : CM F Unit) := by
  intro d hs hd
  rcases readStartElement_cases fuel name attrs d with ⟨-, -, -, -, h⟩ | ⟨-, ⟨-, h⟩ | ⟨df, hdr, ⟨-, h⟩ | ⟨-, c', hE, h⟩ | ⟨-, -, h⟩⟩⟩
  · rw [h, recordDef_eq]; exact ⟨⟨hs.stack, hs.paths, hs.masks, hs.mask⟩, fun _ => hd⟩
  · rw [h]; exact handleError_paints _ d hs hd
  · rw [h]; exact draw_paints (useF_paints fuel) hdr attrs d hs hd
  · rw [h]
    have := draw_paints (useF_paints fuel) hdr attrs d hs hd
    exact ⟨emit_shown hE this.1, fun hok => by unfold Directed; rw [(emit_gradSame hE).heap]; exact this.2 hok⟩
  · rw [h]; exact ⟨(draw_paints (useF_paints fuel) hdr attrs d hs hd).1, fun h => by cases h⟩

theorem readToken_paints (fuel : Nat) (t : Token) : Paints (readToken fuel t : CM F Unit) := by
  cases t with
  | start name attrs => rw [readToken]; exact paints_bind (pushStyle_paints _) fun _ => readStart_paints fuel name attrs
  | stop name =>
    rw [readToken]
    unfold readEndElement
    refine paints_bind popStyle_paints fun _ => ?_
    intro c hs hd
    rw [SM.modify_run]
    dsimp only
    split
    · split <;> exact ⟨⟨hs.stack, hs.paths, hs.masks, hs.mask⟩, fun _ => hd⟩
    · split
      · split
        · rename_i m hm
          refine ⟨⟨hs.stack, hs.paths, ?_, fun mk h => by cases h⟩, fun _ => hd⟩
          intro id mk hf
          rcases find_insert_some hf with rfl | hf
          · exact hs.mask _ hm
          · exact hs.masks id mk hf
        · exact ⟨⟨hs.stack, hs.paths, hs.masks, hs.mask⟩, fun _ => hd⟩
      · split
        · exact ⟨⟨hs.stack, hs.paths, hs.masks, hs.mask⟩, fun _ => hd⟩
        · split
          · exact ⟨⟨hs.stack, hs.paths, hs.masks, hs.mask⟩, fun _ => hd⟩
          · split
            · split <;> exact ⟨⟨hs.stack, hs.paths, hs.masks, hs.mask⟩, fun _ => hd⟩
            · split <;> exact ⟨⟨hs.stack, hs.paths, hs.masks, hs.mask⟩, fun _ => hd⟩
  | chars s =>
    rw [readToken]
    exact paints_same fun c => by rw [(readChars_keeps s c).eq]; exact ⟨rfl, rfl, rfl, rfl, rfl⟩
  | other => rw [readToken]; exact paints_pure _

theorem readTokens_paints (fuel : Nat) : ∀ ts : List Token, Paints (readTokens fuel ts : CM F Unit)
  | [] => paints_pure _
  | t :: ts => by exact paints_bind (readToken_paints fuel t) fun _ => readTokens_paints fuel ts

theorem shown_init (m : ErrorMode) : ShownOK (initCursor (F := F) m) := by
  refine ⟨?_, (fun p hp => by cases hp), (fun id mk h => by cases h), (fun mk h => by cases h)⟩
  intro st hst
  have : st = defaultStyle := by simpa [initCursor] using hst
  subst this
  exact ⟨(fun g h => by cases h), (fun g h => by cases h)⟩

theorem directed_init (m : ErrorMode) : Directed (initCursor (F := F) m) := fun g h => by cases h

end GoSvg
