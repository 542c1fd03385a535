import Verif.Lemmas.TokenStep

/-! The arrays behind the mask lists: what is shared and what stays. -/

set_option linter.unusedSectionVars false

namespace GoSvg

variable {F : Type} [GoFloat F] [GoEnv]

open SM (get modify throw lift panic diverge forEach)

/-- A slice whose spare room, if any, lies behind the first three entries. -/
structure SliceOK (a : List (List Str)) (s : Slice) : Prop where
  arr : s.arr < a.length
  le : s.len ≤ s.cap
  spare : s.len < s.cap → 3 ≤ s.len
  full : s.cap ≤ (a[s.arr]?.getD []).length

/-- Old arrays stay, with the same first three entries. -/
structure MemR (a a' : List (List Str)) : Prop where
  le : a.length ≤ a'.length
  same : ∀ i, i < a.length → (a'[i]?.getD []).take 3 = (a[i]?.getD []).take 3
  size : ∀ i, i < a.length → (a'[i]?.getD []).length = (a[i]?.getD []).length

theorem memR_refl (a : List (List Str)) : MemR a a := ⟨Nat.le_refl _, fun _ _ => rfl, fun _ _ => rfl⟩

theorem memR_trans {a b c : List (List Str)} (h1 : MemR a b) (h2 : MemR b c) : MemR a c :=
  ⟨Nat.le_trans h1.1 h2.1, fun i hi => (h2.2 i (Nat.lt_of_lt_of_le hi h1.1)).trans (h1.2 i hi),
    fun i hi => (h2.3 i (Nat.lt_of_lt_of_le hi h1.1)).trans (h1.3 i hi)⟩

theorem sliceOK_mono {a a' : List (List Str)} {s : Slice} (h : MemR a a') (hs : SliceOK a s) : SliceOK a' s :=
  ⟨Nat.lt_of_lt_of_le hs.1 h.1, hs.2, hs.3, by rw [h.size _ hs.1]; exact hs.4⟩

theorem take_set_of_le {α : Type} (l : List α) (x : α) {n i : Nat} (h : n ≤ i) : (l.set i x).take n = l.take n := by
  apply List.ext_getElem?
  intro j
  rw [List.getElem?_take, List.getElem?_take]
  split
  · rw [List.getElem?_set_ne (by omega)]
  · rfl

theorem appendMask_mem {a : List (List Str)} {s : Slice} (h : SliceOK a s) (id : Str) :
    MemR a (appendMask a s id).1 ∧ SliceOK (appendMask a s id).1 (appendMask a s id).2 := by
  unfold appendMask
  by_cases hl : s.len < s.cap
  · rw [if_pos hl]
    have h3 := h.spare hl
    have hm : MemR a (a.modify s.arr fun x => x.set s.len id) := by
      have key : ∀ i, i < a.length → ((a.modify s.arr fun x => x.set s.len id)[i]?.getD []).take 3 = (a[i]?.getD []).take 3 ∧
          ((a.modify s.arr fun x => x.set s.len id)[i]?.getD []).length = (a[i]?.getD []).length := by
        intro i hi
        rw [List.getElem?_modify]
        by_cases he : s.arr = i
        · subst he
          simp only [if_true]
          rw [List.getElem?_eq_getElem hi]
          simp only [Option.map_some, Option.getD_some]
          exact ⟨take_set_of_le _ _ h3, List.length_set⟩
        · simp only [if_neg he]
          cases a[i]? <;> exact ⟨rfl, rfl⟩
      exact ⟨by rw [List.length_modify]; exact Nat.le_refl _, fun i hi => (key i hi).1, fun i hi => (key i hi).2⟩
    refine ⟨hm, ⟨?_, hl, fun _ => by show 3 ≤ s.len + 1; omega, ?_⟩⟩
    · exact Nat.lt_of_lt_of_le h.arr hm.le
    · rw [hm.size _ h.arr]; exact h.full
  · rw [if_neg hl]
    have hle := h.le
    have hc : s.len = s.cap := by omega
    have hg := GoEnv.growCap_gt s.cap
    refine ⟨⟨by simp, fun i hi => by rw [List.getElem?_append_left hi], fun i hi => by rw [List.getElem?_append_left hi]⟩,
      ⟨by simp, by show s.len + 1 ≤ GoEnv.growCap s.cap; omega, fun h' => ?_, ?_⟩⟩
    · show 3 ≤ s.len + 1
      have h' : s.len + 1 < GoEnv.growCap s.cap := h'
      by_cases h2 : s.cap < 2
      · have := GoEnv.growCap_small s.cap (by omega)
        split at this <;> omega
      · omega
    · have hf := h.full
      show GoEnv.growCap s.cap ≤ ((a ++ [s.read a ++ id :: List.replicate (GoEnv.growCap s.cap - s.len - 1) []])[a.length]?.getD []).length
      rw [List.getElem?_append_right (Nat.le_refl _)]
      simp only [Nat.sub_self, List.getElem?_cons_zero, Option.getD_some, List.length_append, List.length_cons, List.length_replicate]
      unfold Slice.read
      rw [List.length_take, List.getD_eq_getElem?_getD]
      omega

/-- The masks of the styles on the stack. -/
def StackOK (c : Cursor F) : Prop := ∀ st ∈ c.styleStack, SliceOK c.svg.arrays st.masks

def MaskR (c c' : Cursor F) : Prop := StackOK c → StackOK c' ∧ MemR c.svg.arrays c'.svg.arrays

theorem maskR_pre : Pre (MaskR (F := F)) where
  refl c h := ⟨h, memR_refl _⟩
  trans h1 h2 h := ⟨(h2 (h1 h).1).1, memR_trans (h1 h).2 (h2 (h1 h).1).2⟩

theorem maskR_same {c c' : Cursor F} (hs : c'.styleStack = c.styleStack) (ha : c'.svg.arrays = c.svg.arrays) : MaskR c c' := by
  intro h
  refine ⟨?_, ha ▸ memR_refl _⟩
  intro st hst
  rw [ha]
  exact h st (hs ▸ hst)

/-- The same style with another list of masks. -/
def PathStyle.withMasks (st : PathStyle F) (s : Slice) : PathStyle F := { st with masks := s }

/-- The same effect with another list of masks. -/
def Eff.withMasks (s : Slice) : Eff F → Eff F
  | .set (.ok st) => .set (.ok (st.withMasks s))
  | e => e

theorem eff_withMasks_bind {α : Type} (s : Slice) (x : Res α) (f g : α → PathStyle F) (h : ∀ a, g a = (f a).withMasks s) :
    (Eff.set (do let a ← x; .ok (g a)) : Eff F) = (Eff.set (do let a ← x; .ok (f a))).withMasks s := by
  cases x with
  | ok a => show Eff.set (.ok (g a)) = Eff.set (.ok _); rw [h]
  | _ => rfl

/-- The masks of a style play no part in its other declarations. -/
theorem styleEff_withMasks (svg : Svg F) (st : PathStyle F) (s : Slice) (k v : Str) :
    styleEff svg (st.withMasks s) k v = (styleEff svg st k v).withMasks s := by
  unfold styleEff
  by_cases h1 : k = "fill".toList
  · rw [if_pos h1, if_pos h1]
    show (match readGradURL svg v st.fillerColor with | some g => _ | none => _) = _
    cases readGradURL svg v st.fillerColor with
    | some g => rfl
    | none => exact eff_withMasks_bind s _ _ _ fun _ => rfl
  rw [if_neg h1, if_neg h1]; clear h1
  by_cases h1 : k = "fill-rule".toList
  · rw [if_pos h1, if_pos h1]
    split
    · rfl
    · split <;> rfl
  rw [if_neg h1, if_neg h1]; clear h1
  by_cases h1 : k = "stroke".toList
  · rw [if_pos h1, if_pos h1]
    show (match readGradURL svg v st.linerColor with | some g => _ | none => _) = _
    cases readGradURL svg v st.linerColor with
    | some g => rfl
    | none => exact eff_withMasks_bind s _ _ _ fun _ => rfl
  rw [if_neg h1, if_neg h1]; clear h1
  by_cases h1 : k = "stroke-linegap".toList
  · rw [if_pos h1, if_pos h1]; cases gapOf v <;> rfl
  rw [if_neg h1, if_neg h1]; clear h1
  by_cases h1 : k = "stroke-leadlinecap".toList
  · rw [if_pos h1, if_pos h1]; cases capOf v <;> rfl
  rw [if_neg h1, if_neg h1]; clear h1
  by_cases h1 : k = "stroke-linecap".toList
  · rw [if_pos h1, if_pos h1]; cases capOf v <;> rfl
  rw [if_neg h1, if_neg h1]; clear h1
  by_cases h1 : k = "stroke-linejoin".toList
  · rw [if_pos h1, if_pos h1]; cases joinOf v <;> rfl
  rw [if_neg h1, if_neg h1]; clear h1
  by_cases h1 : k = "stroke-miterlimit".toList
  · rw [if_pos h1, if_pos h1]; exact eff_withMasks_bind s _ _ _ fun _ => rfl
  rw [if_neg h1, if_neg h1]; clear h1
  by_cases h1 : k = "stroke-width".toList
  · rw [if_pos h1, if_pos h1]; exact eff_withMasks_bind s _ _ _ fun _ => rfl
  rw [if_neg h1, if_neg h1]; clear h1
  by_cases h1 : k = "stroke-dashoffset".toList
  · rw [if_pos h1, if_pos h1]; exact eff_withMasks_bind s _ _ _ fun _ => rfl
  rw [if_neg h1, if_neg h1]; clear h1
  by_cases h1 : k = "stroke-dasharray".toList
  · rw [if_pos h1, if_pos h1]
    split
    · exact eff_withMasks_bind s _ _ _ fun _ => rfl
    · rfl
  rw [if_neg h1, if_neg h1]; clear h1
  by_cases h1 : k = "opacity".toList ∨ k = "stroke-opacity".toList ∨ k = "fill-opacity".toList
  · rw [if_pos h1, if_pos h1]
    refine eff_withMasks_bind s _ _ _ fun op => ?_
    by_cases ha : k ≠ "stroke-opacity".toList
    · by_cases hb : k ≠ "fill-opacity".toList
      · simp only [if_pos ha, if_pos hb]; rfl
      · simp only [if_pos ha, if_neg hb]; rfl
    · by_cases hb : k ≠ "fill-opacity".toList
      · simp only [if_neg ha, if_pos hb]; rfl
      · simp only [if_neg ha, if_neg hb]
  rw [if_neg h1, if_neg h1]; clear h1
  by_cases h1 : k = "transform".toList
  · rw [if_pos h1, if_pos h1]; rfl
  rw [if_neg h1, if_neg h1]; clear h1
  by_cases h1 : k = "mask".toList
  · rw [if_pos h1, if_pos h1]; rfl
  rw [if_neg h1, if_neg h1]; rfl

theorem styleEff_masks {svg : Svg F} {st st' : PathStyle F} {k v : Str} (h : styleEff svg st k v = .set (.ok st')) :
    st'.masks = st.masks := by
  have h2 := styleEff_withMasks svg st st.masks k v
  rw [show st.withMasks st.masks = st from rfl, h] at h2
  change Eff.set (.ok st') = Eff.set (.ok (st'.withMasks st.masks)) at h2
  injection h2 with h2; injection h2 with h2
  rw [h2]; rfl

theorem handleError_svg (m : Msg) (c : Cursor F) : (handleError m c).2.svg = c.svg := by
  rw [show (handleError m c).2 = { c with pc := (handleError m c).2.pc } from ?_]
  unfold handleError
  split
  · rfl
  · split <;> rfl

theorem parseTransform_svg (v : Str) (c : Cursor F) : (parseTransform (F := F) v c).2.svg = c.svg := by
  cases hs : c.styleStack with
  | nil => rw [parseTransform, SM.bind_run, SM.get_run]; simp only [hs]; rfl
  | cons top rest =>
    obtain ⟨r, g, -, h⟩ := parseTransform_frame v top.transform
    rw [h c top rest hs rfl]; rfl

theorem readStyleAttr_mem (st : PathStyle F) (k v : Str) (c : Cursor F) (hs : SliceOK c.svg.arrays st.masks) :
    MemR c.svg.arrays (readStyleAttr st k v c).2.svg.arrays ∧
    ∀ st', (readStyleAttr st k v c).1 = .ok st' → SliceOK (readStyleAttr st k v c).2.svg.arrays st'.masks := by
  rw [readStyleAttr_eff]
  cases he : styleEff c.svg st k v with
  | set r =>
    simp only [runEff, SM.lift_run]
    refine ⟨memR_refl _, fun st' h => ?_⟩
    rw [h] at he
    rw [styleEff_masks he]
    exact hs
  | warn m =>
    simp only [runEff]
    rw [SM.bind_run]
    have hp := handleError_svg m c
    rcases hr : handleError m c with ⟨r, d⟩
    rw [hr] at hp
    dsimp only at hp
    cases r with
    | ok _ =>
      simp only [SM.pure_run, hp]
      exact ⟨memR_refl _, fun st' h => by cases h; exact hs⟩
    | err _ => simp only [hp]; exact ⟨memR_refl _, fun st' h => nomatch h⟩
    | panic _ => simp only [hp]; exact ⟨memR_refl _, fun st' h => nomatch h⟩
    | diverge => simp only [hp]; exact ⟨memR_refl _, fun st' h => nomatch h⟩
  | transform =>
    simp only [runEff]
    rw [SM.bind_run]
    have hp := parseTransform_svg v c
    rcases hr : parseTransform (F := F) v c with ⟨r, d⟩
    rw [hr] at hp
    dsimp only at hp
    cases r with
    | ok _ =>
      simp only [SM.pure_run, hp]
      exact ⟨memR_refl _, fun st' h => by cases h; exact hs⟩
    | err _ => simp only [hp]; exact ⟨memR_refl _, fun st' h => nomatch h⟩
    | panic _ => simp only [hp]; exact ⟨memR_refl _, fun st' h => nomatch h⟩
    | diverge => simp only [hp]; exact ⟨memR_refl _, fun st' h => nomatch h⟩
  | mask =>
    simp only [runEff]
    rw [SM.bind_run, SM.lift_run]
    cases hp : parseSelector v with
    | ok id => exact ⟨(appendMask_mem hs id).1, fun st' h => by cases h; exact (appendMask_mem hs id).2⟩
    | err _ => exact ⟨memR_refl _, fun st' h => nomatch h⟩
    | panic _ => exact ⟨memR_refl _, fun st' h => nomatch h⟩
    | diverge => exact ⟨memR_refl _, fun st' h => nomatch h⟩

theorem declLoop_mem (ds : List (Str × Str)) : ∀ (st : PathStyle F) (c : Cursor F), SliceOK c.svg.arrays st.masks →
    MemR c.svg.arrays (declLoop st ds c).2.svg.arrays ∧
    ∀ st', (declLoop st ds c).1 = .ok st' → SliceOK (declLoop st ds c).2.svg.arrays st'.masks := by
  induction ds with
  | nil => exact fun st c hs => ⟨memR_refl _, fun st' h => by cases h; exact hs⟩
  | cons d ds ih =>
    intro st c hs
    have h := readStyleAttr_mem st d.1 d.2 c hs
    rw [declLoop, SM.bind_run]
    rcases hr : readStyleAttr st d.1 d.2 c with ⟨r, c1⟩
    rw [hr] at h
    cases r with
    | ok st1 =>
      have h' := ih st1 c1 (h.2 st1 rfl)
      exact ⟨memR_trans h.1 h'.1, h'.2⟩
    | err _ => exact ⟨h.1, fun _ h => nomatch h⟩
    | panic _ => exact ⟨h.1, fun _ h => nomatch h⟩
    | diverge => exact ⟨h.1, fun _ h => nomatch h⟩

theorem pushStyle_mask (attrs : List Attr) : Keeps MaskR (pushStyle attrs : CM F Unit) := by
  intro c hc
  rw [pushStyle_decls]
  cases hs : c.styleStack with
  | nil => exact ⟨hc, memR_refl _⟩
  | cons top rest =>
    have hm := declLoop_mem (decls attrs) top c (hc top (by rw [hs]; exact List.mem_cons_self))
    have hf := declLoop_styleR (decls attrs) top c
    dsimp only
    rw [SM.bind_run]
    rcases hr : declLoop top (decls attrs) c with ⟨r, c1⟩
    rw [hr] at hm hf
    have hstk : c1.styleStack = c.styleStack := by have := hf.eq; dsimp only at this; rw [this]
    have hc1 : StackOK c1 := fun st hst => sliceOK_mono hm.1 (hc st (hstk ▸ hst))
    cases r with
    | ok st =>
      refine ⟨?_, hm.1⟩
      intro st' hst'
      rcases List.mem_cons.1 hst' with rfl | hst'
      · exact hm.2 _ rfl
      · exact hc1 st' hst'
    | err _ => exact ⟨hc1, hm.1⟩
    | panic _ => exact ⟨hc1, hm.1⟩
    | diverge => exact ⟨hc1, hm.1⟩

theorem popStyle_mask : Keeps MaskR (popStyle : CM F Unit) := by
  intro c hc
  unfold popStyle
  cases hs : c.styleStack with
  | nil => exact ⟨hc, memR_refl _⟩
  | cons st rest => exact ⟨fun s h => hc s (by rw [hs]; exact List.mem_cons_of_mem _ h), memR_refl _⟩

theorem handleError_mask (m : Msg) : Keeps MaskR (handleError m : CM F Unit) := by
  intro c
  exact maskR_same (by rw [(handleError_styleR m c).eq]) (by rw [handleError_svg])

theorem maskR_use : UsePre (MaskR (F := F)) where
  toPre := maskR_pre
  push := pushStyle_mask
  pop := popStyle_mask
  error := handleError_mask
  plain _ _ h := maskR_same h.styleStack h.arrays
  offset c x y := maskR_same rfl rfl

/-- The paths of the document and the styles on the stack hold good slices. -/
def PathsOK (c : Cursor F) : Prop := StackOK c ∧ ∀ p ∈ c.svg.svgPaths, SliceOK c.svg.arrays p.style.masks

def MaskPathR (c c' : Cursor F) : Prop := PathsOK c → PathsOK c' ∧ MemR c.svg.arrays c'.svg.arrays

theorem maskPathR_pre : Pre (MaskPathR (F := F)) where
  refl c h := ⟨h, memR_refl _⟩
  trans h1 h2 h := ⟨(h2 (h1 h).1).1, memR_trans (h1 h).2 (h2 (h1 h).1).2⟩

theorem maskPathR_of {c c' : Cursor F} (h : MaskR c c') (hp : c'.svg.svgPaths = c.svg.svgPaths) : MaskPathR c c' := by
  intro hc
  obtain ⟨h1, h2⟩ := h hc.1
  exact ⟨⟨h1, fun p hp' => sliceOK_mono h2 (hc.2 p (hp ▸ hp'))⟩, h2⟩

theorem emit_maskPath {c c' : Cursor F} (h : Emit c c') : MaskPathR c c' := by
  cases h with
  | nothing => exact maskPathR_pre.refl c
  | lost => exact maskPathR_of (maskR_same rfl rfl) rfl
  | mask => exact maskPathR_of (maskR_same rfl rfl) rfl
  | doc h1 h2 h3 =>
    intro hc
    refine ⟨⟨hc.1, fun p hp => ?_⟩, memR_refl _⟩
    rcases List.mem_append.1 hp with hp | hp
    · exact hc.2 p hp
    · rw [List.mem_singleton] at hp
      subst hp
      exact hc.1 _ (by simp_all)

theorem readStart_maskPath (fuel : Nat) (name : Str) (attrs : List Attr) :
    Keeps MaskPathR (readStartElement fuel name attrs : CM F Unit) := by
  intro c
  have hdf : ∀ {df}, drawFuncs fuel (useF fuel) name = some df → MaskPathR c (df attrs c).2 := fun hd =>
    maskPathR_of (drawFuncs_keeps maskR_use hd attrs c) (drawFuncs_elem hd attrs c).svgPaths
  rcases readStartElement_cases fuel name attrs c with ⟨-, -, -, -, h⟩ | ⟨-, ⟨-, h⟩ | ⟨df, hd, ⟨-, h⟩ | ⟨-, c', hE, h⟩ | ⟨-, -, h⟩⟩⟩
  · rw [h]
    show MaskPathR c (recordDef name attrs c)
    rw [recordDef_eq]
    exact maskPathR_of (maskR_same rfl rfl) rfl
  · rw [h]; exact maskPathR_of (handleError_mask _ c) (handleError_elem _ c).svgPaths
  · rw [h]; exact hdf hd
  · rw [h]; exact maskPathR_pre.trans (hdf hd) (emit_maskPath hE)
  · rw [h]; exact hdf hd

theorem readToken_maskPath (fuel : Nat) (t : Token) : Keeps MaskPathR (readToken fuel t : CM F Unit) := by
  cases t with
  | start name attrs =>
    refine keeps_bind maskPathR_pre (fun c => ?_) fun _ => readStart_maskPath fuel name attrs
    exact maskPathR_of (pushStyle_mask attrs c) (pushStyle_elem attrs c).svgPaths
  | stop name =>
    intro c
    rcases readEnd_cases name c with ⟨-, h⟩ | ⟨c', -, h, hE⟩
    · rw [readToken, h]; exact maskPathR_pre.refl c
    · rw [readToken, h]
      intro hc
      have ha : c'.svg.arrays = c.svg.arrays := by rw [hE.eq]
      have hp : c'.svg.svgPaths = c.svg.svgPaths := by rw [hE.eq]
      refine ⟨⟨fun st hst => ?_, fun p hp' => ?_⟩, ?_⟩
      · dsimp only at hst ⊢
        rw [ha]; rw [hE.stack] at hst; exact hc.1 st (List.mem_of_mem_tail hst)
      · dsimp only at hp' ⊢
        rw [ha]; exact hc.2 p (hp ▸ hp')
      · dsimp only; rw [ha]; exact memR_refl _
  | chars s =>
    intro c
    have h := (readChars_keeps s c).eq
    rw [readToken, h]
    exact maskPathR_of (maskR_same rfl rfl) rfl
  | other => exact keeps_pure maskPathR_pre _

theorem readTokens_maskPath (fuel : Nat) : ∀ ts, Keeps MaskPathR (readTokens fuel ts : CM F Unit)
  | [] => keeps_pure maskPathR_pre _
  | t :: ts => keeps_bind maskPathR_pre (readToken_maskPath fuel t) fun _ => readTokens_maskPath fuel ts

theorem pathsOK_init (mode : ErrorMode) : PathsOK (initCursor (F := F) mode) := by
  refine ⟨fun st hst => ?_, fun p hp => nomatch hp⟩
  cases List.mem_singleton.1 hst
  exact ⟨Nat.zero_lt_one, Nat.le_refl _, (fun h => nomatch h), Nat.zero_le _⟩

end GoSvg
