import Verif.Lemmas.Cascade
import Verif.Lemmas.Defs
import Verif.Lemmas.MaskMem
import Verif.Props.Styles

/-! Styles depend on the declarations and the view box only. -/

set_option linter.unusedSectionVars false

namespace GoSvg

open Spec

variable {F : Type} [GoFloat F] [GoEnv]

open SM (get modify throw lift panic diverge forEach)

/-- The values of the declarations with one of the names. -/
def valuesIn (ks : List String) (ds : List (Str × Str)) : List Str := (ds.filter fun d => ks.any fun k => d.1 = k.toList).map (·.2)

theorem valuesAlong_cons (ks : List String) (e : Elem) (ch : List Elem) :
    valuesAlong ks (e :: ch) = valuesAlong ks ch ++ valuesIn ks (declared e.attrs) := by
  unfold valuesAlong
  rw [List.reverse_cons, List.flatMap_append]
  simp [valuesIn]

/-- The same style with other masks and other paints. -/
def PathStyle.withPaint (st : PathStyle F) (s : Slice) (a b : Option (Pattern F)) : PathStyle F :=
  { st with masks := s, fillerColor := a, linerColor := b }

/-- The same effect with other masks and other paints. -/
def Eff.withPaint (s : Slice) (a b : Option (Pattern F)) : Eff F → Eff F
  | .set (.ok st) => .set (.ok (st.withPaint s a b))
  | e => e

theorem eff_withPaint_bind {α : Type} (s : Slice) (a b : Option (Pattern F)) (x : Res α) (f g : α → PathStyle F)
    (h : ∀ y, g y = (f y).withPaint s a b) :
    (Eff.set (do let y ← x; .ok (g y)) : Eff F) = (Eff.set (do let y ← x; .ok (f y))).withPaint s a b := by
  cases x with
  | ok y => show Eff.set (.ok (g y)) = Eff.set (.ok _); rw [h]
  | _ => rfl

/-- Declarations other than those of paint depend on the view box only, not on masks and paints. -/
theorem styleEff_withPaint {svg svg' : Svg F} (hb : svg'.viewBox = svg.viewBox) (st : PathStyle F) (s : Slice) (a b : Option (Pattern F))
    {k : Str} (v : Str) (hf : k ≠ "fill".toList) (hs : k ≠ "stroke".toList) :
    styleEff svg' (st.withPaint s a b) k v = (styleEff svg st k v).withPaint s a b := by
  unfold styleEff
  rw [hb, if_neg hf, if_neg hf]
  by_cases h1 : k = "fill-rule".toList
  · rw [if_pos h1, if_pos h1]
    split
    · rfl
    · split <;> rfl
  rw [if_neg h1, if_neg h1, if_neg hs, if_neg hs]; clear h1
  by_cases h1 : k = "stroke-linegap".toList
  · rw [if_pos h1, if_pos h1]; cases gapOf v <;> rfl
  rw [if_neg h1, if_neg h1]; clear h1
  by_cases h1 : k = "stroke-leadlinecap".toList
  · rw [if_pos h1, if_pos h1]; cases capOf v <;> rfl
  rw [if_neg h1, if_neg h1]; clear h1
  by_cases h1 : k = "stroke-linecap".toList
  · rw [if_pos h1, if_pos h1]; cases capOf v <;> rfl
  rw [if_neg h1, if_neg h1]; clear h1
  by_cases h1 : k = "stroke-linejoin".toList
  · rw [if_pos h1, if_pos h1]; cases joinOf v <;> rfl
  rw [if_neg h1, if_neg h1]; clear h1
  by_cases h1 : k = "stroke-miterlimit".toList
  · rw [if_pos h1, if_pos h1]; exact eff_withPaint_bind s a b _ _ _ fun _ => rfl
  rw [if_neg h1, if_neg h1]; clear h1
  by_cases h1 : k = "stroke-width".toList
  · rw [if_pos h1, if_pos h1]; exact eff_withPaint_bind s a b _ _ _ fun _ => rfl
  rw [if_neg h1, if_neg h1]; clear h1
  by_cases h1 : k = "stroke-dashoffset".toList
  · rw [if_pos h1, if_pos h1]; exact eff_withPaint_bind s a b _ _ _ fun _ => rfl
  rw [if_neg h1, if_neg h1]; clear h1
  by_cases h1 : k = "stroke-dasharray".toList
  · rw [if_pos h1, if_pos h1]
    split
    · exact eff_withPaint_bind s a b _ _ _ fun _ => rfl
    · rfl
  rw [if_neg h1, if_neg h1]; clear h1
  by_cases h1 : k = "opacity".toList ∨ k = "stroke-opacity".toList ∨ k = "fill-opacity".toList
  · rw [if_pos h1, if_pos h1]
    refine eff_withPaint_bind s a b _ _ _ fun op => ?_
    by_cases ha : k ≠ "stroke-opacity".toList
    · by_cases hb : k ≠ "fill-opacity".toList
      · simp only [if_pos ha, if_pos hb]; rfl
      · simp only [if_pos ha, if_neg hb]; rfl
    · by_cases hb : k ≠ "fill-opacity".toList
      · simp only [if_neg ha, if_pos hb]; rfl
      · simp only [if_neg ha, if_neg hb]
  rw [if_neg h1, if_neg h1]; clear h1
  by_cases h1 : k = "transform".toList
  · rw [if_pos h1, if_pos h1]; rfl
  rw [if_neg h1, if_neg h1]; clear h1
  by_cases h1 : k = "mask".toList
  · rw [if_pos h1, if_pos h1]; rfl
  rw [if_neg h1, if_neg h1]; rfl

/-- The styles agree but for masks and, where excepted, paints. -/
structure Alike (f l : Prop) (st1 st2 : PathStyle F) : Prop where
  eq : st2 = st1.withPaint st2.masks st2.fillerColor st2.linerColor
  fill : f → st2.fillerColor = st1.fillerColor
  line : l → st2.linerColor = st1.linerColor

theorem alike_refl (f l : Prop) (st : PathStyle F) : Alike f l st st := ⟨rfl, fun _ => rfl, fun _ => rfl⟩

/-- A paint that is not taken from a gradient. -/
def PlainPaint (k : String) (d : Str × Str) : Prop := d.1 = k.toList → hasPrefix d.2 "url(".toList = false

theorem only_paint {k : Str} {st st' : PathStyle F} (h : Only k st st') (hk : k = "fill".toList ∨ k = "stroke".toList) :
    st' = st.withPaint st.masks st'.fillerColor st'.linerColor := by
  have hh := h
  obtain ⟨a1, a2, a3, a4, a5, a6, a7, a8, a9, a10⟩ := st
  obtain ⟨b1, b2, b3, b4, ⟨b51, b52, b53, b54, b55⟩, ⟨b61, b62⟩, b7, b8, b9, b10⟩ := st'
  rcases hk with rfl | rfl
  · have := hh.fillOpacity (by decide) (by decide); have := hh.lineOpacity (by decide) (by decide); have := hh.lineWidth (by decide)
    have := hh.winding (by decide); have := hh.miterLimit (by decide); have := hh.lineJoin (by decide)
    have := hh.trailLineCap (by decide); have := hh.leadLineCap (by decide); have := hh.lineGap (by decide)
    have := hh.dash (by decide); have := hh.dashOffset (by decide); have := hh.masks (by decide); have := hh.transform (by decide)
    dsimp only at *; subst_vars; rfl
  · have := hh.fillOpacity (by decide) (by decide); have := hh.lineOpacity (by decide) (by decide); have := hh.lineWidth (by decide)
    have := hh.winding (by decide); have := hh.miterLimit (by decide); have := hh.lineJoin (by decide)
    have := hh.trailLineCap (by decide); have := hh.leadLineCap (by decide); have := hh.lineGap (by decide)
    have := hh.dash (by decide); have := hh.dashOffset (by decide); have := hh.masks (by decide); have := hh.transform (by decide)
    dsimp only at *; subst_vars; rfl

theorem fill_plain {v : Str} (hn : hasPrefix v "url(".toList = false) {st st' : PathStyle F} {c c' : Cursor F}
    (h : readStyleAttr st "fill".toList v c = (.ok st', c')) : ∃ col, parseSVGColor v = .ok col ∧ st'.fillerColor = col.map .plain := by
  rw [readStyleAttr_eff] at h
  have e : styleEff c.svg st "fill".toList v = .set (do .ok { st with fillerColor := (← parseSVGColor v).map .plain }) := by
    unfold styleEff; rw [if_pos rfl, readGradURL_plain hn]
  rw [e] at h
  simp only [runEff, SM.lift_run, Prod.mk.injEq] at h
  obtain ⟨col, h1, h2⟩ := res_map_inv h.1
  exact ⟨col, h1, by rw [← h2]⟩

theorem stroke_plain {v : Str} (hn : hasPrefix v "url(".toList = false) {st st' : PathStyle F} {c c' : Cursor F}
    (h : readStyleAttr st "stroke".toList v c = (.ok st', c')) : ∃ col, parseSVGColor v = .ok col ∧ st'.linerColor = col.map .plain := by
  rw [readStyleAttr_eff] at h
  have e : styleEff c.svg st "stroke".toList v = .set (do .ok { st with linerColor := (← parseSVGColor v).map .plain }) := by
    unfold styleEff; rw [if_neg (by decide), if_neg (by decide), if_pos rfl, readGradURL_plain hn]
  rw [e] at h
  simp only [runEff, SM.lift_run, Prod.mk.injEq] at h
  obtain ⟨col, h1, h2⟩ := res_map_inv h.1
  exact ⟨col, h1, by rw [← h2]⟩

theorem readStyleAttr_blind {f l : Prop} {k v : Str} (hf : f → PlainPaint "fill" (k, v)) (hl : l → PlainPaint "stroke" (k, v))
    {st1 st2 st1' st2' top1 top2 : PathStyle F}
    {rest1 rest2 : List (PathStyle F)} {c1 c2 c1' c2' : Cursor F} (hb : c2.svg.viewBox = c1.svg.viewBox)
    (hs1 : c1.styleStack = top1 :: rest1) (hs2 : c2.styleStack = top2 :: rest2) (ht : Alike f l top1 top2) (hst : Alike f l st1 st2)
    (h1 : readStyleAttr st1 k v c1 = (.ok st1', c1')) (h2 : readStyleAttr st2 k v c2 = (.ok st2', c2')) : Alike f l st1' st2' := by
  have o1 := readStyleAttr_only h1
  have o2 := readStyleAttr_only h2
  by_cases hk1 : k = "fill".toList
  · have e1 := only_paint o1 (.inl hk1)
    have e2 := only_paint o2 (.inl hk1)
    refine ⟨?_, fun hh => ?_, fun hh => ?_⟩
    · rw [e1, e2, hst.eq]; rfl
    · subst hk1
      obtain ⟨col, p1, p2⟩ := fill_plain (hf hh rfl) h1
      obtain ⟨col', p1', p2'⟩ := fill_plain (hf hh rfl) h2
      rw [p1] at p1'; cases p1'
      rw [p2, p2']
    · rw [o1.liner (by rw [hk1]; decide), o2.liner (by rw [hk1]; decide)]; exact hst.line hh
  by_cases hk2 : k = "stroke".toList
  · have e1 := only_paint o1 (.inr hk2)
    have e2 := only_paint o2 (.inr hk2)
    refine ⟨?_, fun hh => ?_, fun hh => ?_⟩
    · rw [e1, e2, hst.eq]; rfl
    · rw [o1.filler hk1, o2.filler hk1]; exact hst.fill hh
    · subst hk2
      obtain ⟨col, p1, p2⟩ := stroke_plain (hl hh rfl) h1
      obtain ⟨col', p1', p2'⟩ := stroke_plain (hl hh rfl) h2
      rw [p1] at p1'; cases p1'
      rw [p2, p2']
  refine ⟨?_, fun hh => by rw [o1.filler hk1, o2.filler hk1]; exact hst.fill hh,
    fun hh => by rw [o1.liner hk2, o2.liner hk2]; exact hst.line hh⟩
  have e : styleEff c2.svg st2 k v = (styleEff c1.svg st1 k v).withPaint st2.masks st2.fillerColor st2.linerColor := by
    rw [← styleEff_withPaint hb st1 st2.masks st2.fillerColor st2.linerColor v hk1 hk2, ← hst.eq]
  rw [readStyleAttr_eff] at h1 h2
  rw [e] at h2
  cases he : styleEff c1.svg st1 k v with
  | set r =>
    rw [he] at h1 h2
    simp only [runEff, SM.lift_run, Prod.mk.injEq] at h1
    obtain ⟨rfl, -⟩ := h1
    simp only [Eff.withPaint, runEff, SM.lift_run, Prod.mk.injEq, Res.ok.injEq] at h2
    obtain ⟨rfl, -⟩ := h2
    rfl
  | warn m =>
    rw [he] at h1 h2
    simp only [Eff.withPaint, runEff] at h1 h2
    rw [SM.bind_run] at h1 h2
    have e1 : st1' = st1 := by
      rcases hr : handleError m c1 with ⟨r, d⟩
      rw [hr] at h1
      cases r <;> cases h1
      rfl
    have e2 : st2' = st2 := by
      rcases hr : handleError m c2 with ⟨r, d⟩
      rw [hr] at h2
      cases r <;> cases h2
      rfl
    rw [e1, e2]; exact hst.eq
  | transform =>
    rw [he] at h1 h2
    simp only [Eff.withPaint, runEff] at h1 h2
    rw [SM.bind_run] at h1 h2
    have htr : top2.transform = top1.transform := by rw [ht.eq]; rfl
    obtain ⟨r, g, -, hg⟩ := parseTransform_frame (F := F) v top1.transform
    rw [hg c1 top1 rest1 hs1 rfl] at h1
    rw [hg c2 top2 rest2 hs2 htr] at h2
    cases r with
    | ok x =>
      cases h1; cases h2
      rw [hst.eq]
      rfl
    | err e => cases h1
    | panic e => cases h1
    | diverge => cases h1
  | mask =>
    rw [he] at h1 h2
    simp only [Eff.withPaint, runEff] at h1 h2
    rw [SM.bind_run, SM.lift_run] at h1 h2
    cases hp : parseSelector v with
    | ok id =>
      rw [hp] at h1 h2
      simp only [addMask_run, Prod.mk.injEq, Res.ok.injEq] at h1 h2
      rw [← h1.1, ← h2.1, hst.eq]
      rfl
    | err e => rw [hp] at h1; cases h1
    | panic e => rw [hp] at h1; cases h1
    | diverge => rw [hp] at h1; cases h1

theorem declLoop_blind {f l : Prop} (ds : List (Str × Str)) (hf : f → ∀ d ∈ ds, PlainPaint "fill" d) (hl : l → ∀ d ∈ ds, PlainPaint "stroke" d) :
    ∀ {st1 st2 st1' st2' top1 top2 : PathStyle F}
    {rest1 rest2 : List (PathStyle F)} {c1 c2 c1' c2' : Cursor F}, c2.svg.viewBox = c1.svg.viewBox →
    c1.styleStack = top1 :: rest1 → c2.styleStack = top2 :: rest2 → Alike f l top1 top2 → Alike f l st1 st2 →
    declLoop st1 ds c1 = (.ok st1', c1') → declLoop st2 ds c2 = (.ok st2', c2') → Alike f l st1' st2' := by
  induction ds with
  | nil => intro st1 st2 st1' st2' top1 top2 rest1 rest2 c1 c2 c1' c2' _ _ _ _ hst h1 h2; cases h1; cases h2; exact hst
  | cons d ds ih =>
    intro st1 st2 st1' st2' top1 top2 rest1 rest2 c1 c2 c1' c2' hb hs1 hs2 ht hst h1 h2
    rw [declLoop, SM.bind_run] at h1 h2
    have r1 := readStyleAttr_styleR st1 d.1 d.2 c1
    have r2 := readStyleAttr_styleR st2 d.1 d.2 c2
    rcases e1 : readStyleAttr st1 d.1 d.2 c1 with ⟨x1, d1⟩
    rcases e2 : readStyleAttr st2 d.1 d.2 c2 with ⟨x2, d2⟩
    rw [e1] at h1 r1
    rw [e2] at h2 r2
    have f1 := r1.eq; have f2 := r2.eq
    dsimp only at f1 f2
    cases x1 with
    | ok y1 =>
      cases x2 with
      | ok y2 =>
        refine ih (fun h d hd => hf h d (List.mem_cons_of_mem _ hd)) (fun h d hd => hl h d (List.mem_cons_of_mem _ hd)) (c1 := d1) (c2 := d2) ?_
          (top1 := top1) (top2 := top2) (rest1 := rest1) (rest2 := rest2)
          ?_ ?_ ht (readStyleAttr_blind (fun h => hf h d List.mem_cons_self) (fun h => hl h d List.mem_cons_self) hb hs1 hs2 ht hst e1 e2) h1 h2
        · rw [f1, f2]; exact hb
        · rw [f1]; exact hs1
        · rw [f2]; exact hs2
      | err e => cases h2
      | panic e => cases h2
      | diverge => cases h2
    | err e => cases h1
    | panic e => cases h1
    | diverge => cases h1

/-- The states in which the declarations of an element of a document are read: the root element's own before the view box is
known, all others with the view box `vb`. -/
def BoxAt (vb : Bounds F) (ch : List Elem) (c : Cursor F) : Prop :=
  c.svg.viewBox = if ch = [] then (initCursor (F := F) ErrorMode.ignore).svg.viewBox else vb

/-- The style, masks and gradients apart, is determined. -/
theorem cascade_unique {f l : Prop} {vb : Bounds F} {ch : List Elem} (hf : f → ∀ e ∈ ch, ∀ d ∈ decls e.attrs, PlainPaint "fill" d)
    (hl : l → ∀ e ∈ ch, ∀ d ∈ decls e.attrs, PlainPaint "stroke" d) {st1 : PathStyle F}
    (h1 : Cascade (BoxAt vb) ch st1) : ∀ {st2 : PathStyle F}, Cascade (BoxAt vb) ch st2 → Alike f l st1 st2 := by
  induction h1 with
  | root => intro st2 h2; cases h2; exact alike_refl ..
  | elem h hs hv hd ih =>
    intro st2 h2
    cases h2 with
    | elem h' hs' hv' hd' =>
      have ht := ih (fun hh e he => hf hh e (List.mem_cons_of_mem _ he)) (fun hh e he => hl hh e (List.mem_cons_of_mem _ he)) h'
      exact declLoop_blind _ (fun hh => hf hh _ List.mem_cons_self) (fun hh => hl hh _ List.mem_cons_self) (hv'.trans hv.symm) hs hs' ht ht hd hd'

theorem noTags_run (fuel : Nat) (m : ErrorMode) : ∀ ts, NoTags ts → readTokens fuel ts (initCursor (F := F) m) = (.ok (), initCursor m)
  | [], _ => rfl
  | t :: ts, h => by
    have ih := noTags_run fuel m ts fun t ht => h t (List.mem_cons_of_mem _ ht)
    have ht := h t List.mem_cons_self
    rw [readTokens_cons, SM.bind_run]
    have hr : readToken fuel t (initCursor (F := F) m) = (.ok (), initCursor m) := by
      cases t with
      | start n a => exact absurd rfl (ht.1 n a)
      | stop n => exact absurd rfl (ht.2 n)
      | chars s => rfl
      | other => rfl
    rw [hr]
    exact ih

end GoSvg
