import Verif.Lemmas.Docs
import Verif.Props.Transforms
import Verif.Spec.StyleText

/-! Properties C26 and C27: declarations in attributes and in `style`, and keyword properties. -/

set_option linter.unusedSectionVars false

namespace GoSvg

variable {F : Type} [GoFloat F] [GoEnv]

open Spec
open SM (get modify throw lift panic diverge forEach)

/-! ### C26 -/

theorem stylePairs_append (as bs : List Attr) : stylePairs (as ++ bs) = stylePairs as ++ stylePairs bs := by
  induction as with
  | nil => rfl
  | cons a as ih =>
    rw [List.cons_append, stylePairs, stylePairs, ih]
    split <;> simp

theorem decls_append (as bs : List Attr) : decls (as ++ bs) = decls as ++ decls bs := by
  rw [decls, stylePairs_append, List.filterMap_append]; rfl

theorem decls_cons (a : Attr) (bs : List Attr) : decls (a :: bs) = decls [a] ++ decls bs := decls_append [a] bs

theorem toLower_ascii_str {w : Str} (h : ∀ c ∈ w, c.toNat < 128) : toLower w = w.map Char.toLower := by
  unfold toLower
  exact List.map_congr_left fun c hc => GoEnv.toLower_ascii c (h c hc)

theorem toLower_append (s t : Str) : toLower (s ++ t) = toLower s ++ toLower t := List.map_append ..

set_option maxRecDepth 10000 in
theorem ascii_lower : ∀ n < 128, (Char.ofNat n).toLower.toLower = (Char.ofNat n).toLower ∧ (Char.ofNat n).toLower.toNat < 128 ∧
    isSpace (Char.ofNat n).toLower = isSpace (Char.ofNat n) ∧ (isSpace (Char.ofNat n) = true → (Char.ofNat n).toLower = Char.ofNat n) ∧
    ((Char.ofNat n).toLower = ':' → Char.ofNat n = ':') := by decide

theorem lower_facts {c : Char} (h : c.toNat < 128) : c.toLower.toLower = c.toLower ∧ c.toLower.toNat < 128 ∧
    isSpace c.toLower = isSpace c ∧ (isSpace c = true → c.toLower = c) ∧ (c.toLower = ':' → c = ':') := by
  have := ascii_lower c.toNat h
  rwa [Char.ofNat_toNat] at this

theorem map_lower_idem {k : Str} (h : ∀ c ∈ k, c.toNat < 128) : (k.map Char.toLower).map Char.toLower = k.map Char.toLower := by
  rw [List.map_map]
  exact List.map_congr_left fun c hc => (lower_facts (h c hc)).1

theorem map_lower_blank {w : Str} (h : ∀ c ∈ w, isSpace c = true ∧ c.toNat < 128) : toLower w = w := by
  rw [toLower_ascii_str fun c hc => (h c hc).2]
  conv => rhs; rw [← List.map_id w]
  exact List.map_congr_left fun c hc => (lower_facts (h c hc).2).2.2.2.1 (h c hc).1

theorem split_head (sep : Char) (s t : Str) (h : sep ∉ s) : split sep (s ++ sep :: t) = s :: split sep t := split_append_sep h

/-- A declaration in `style` and the attribute that says the same. -/
theorem declOf_item {w key w' value : Str} (h : (StyleItem.decl w key w' value).WF) :
    declOf (StyleItem.decl w key w' value).text = declOf (key.map Char.toLower ++ ':' :: value) := by
  obtain ⟨h1, h2, h3, -, -⟩ := h
  have hcolon : ∀ u : Str, (∀ c ∈ u, isSpace c = true ∧ c.toNat < 128) → ':' ∉ u := fun u hu hm => by
    have := (hu _ hm).1; simp [isSpace] at this
  have hk : ':' ∉ key := fun hm => (h3 _ hm).2.2.1 rfl
  have hk' : ':' ∉ key.map Char.toLower := by
    rw [List.mem_map]
    rintro ⟨c, hc, e⟩
    exact (h3 c hc).2.2.1 ((lower_facts (h3 c hc).1).2.2.2.2 e)
  unfold declOf StyleItem.text
  rw [split_append_sep (s := w ++ key ++ w') (by simp [hcolon w h1, hcolon w' h2, hk]), split_append_sep hk']
  have hsmall : ∀ c ∈ key.map Char.toLower, c.toNat < 128 := by
    intro c hc
    obtain ⟨d, hd, rfl⟩ := List.mem_map.1 hc
    exact (lower_facts (h3 d hd).1).2.1
  have hns : ∀ c ∈ key.map Char.toLower, isSpace c = false := by
    intro c hc
    obtain ⟨d, hd, rfl⟩ := List.mem_map.1 hc
    rw [(lower_facts (h3 d hd).1).2.2.1]; exact (h3 d hd).2.1
  have htr : Trimmed (key.map Char.toLower) := ⟨fun c hc => hns c (List.mem_of_mem_head? hc), fun c hc => hns c (List.mem_of_mem_getLast? hc)⟩
  have e1 : trimSpace (toLower (w ++ key ++ w')) = key.map Char.toLower := by
    rw [toLower_append, toLower_append, map_lower_blank h1, map_lower_blank h2, toLower_ascii_str fun c hc => (h3 c hc).1]
    exact trimSpace_pad (fun c hc => (h1 c hc).1) (fun c hc => (h2 c hc).1) htr
  have e2 : trimSpace (toLower (key.map Char.toLower)) = key.map Char.toLower := by
    rw [toLower_ascii_str hsmall, map_lower_idem fun c hc => (h3 c hc).1]
    exact trimSpace_of_trimmed htr
  cases hs : split ':' value with
  | nil => exact absurd hs (split_ne_nil _ _)
  | cons v vs => simp only [e1, e2]

theorem declOf_junk {s : Str} (h : ':' ∉ s) : declOf s = none := by
  unfold declOf; rw [split_no_sep h]

theorem no_semicolon {i : StyleItem} (h : i.WF) : ';' ∉ i.text := by
  cases i with
  | junk s => exact h.2
  | decl w key w' value =>
    obtain ⟨h1, h2, h3, -, h5⟩ := h
    have hb : ∀ u : Str, (∀ c ∈ u, isSpace c = true ∧ c.toNat < 128) → ';' ∉ u := fun u hu hm => by
      have := (hu _ hm).1; simp [isSpace] at this
    simp only [StyleItem.text, List.mem_append, List.mem_cons, not_or]
    exact ⟨⟨⟨hb w h1, fun hm => (h3 _ hm).2.2.2 rfl⟩, hb w' h2⟩, by decide, h5⟩

theorem split_styleText (items : List StyleItem) (h : ∀ i ∈ items, i.WF) (hne : items ≠ []) :
    split ';' (styleText items) = items.map StyleItem.text := by
  induction items with
  | nil => exact absurd rfl hne
  | cons i items ih =>
    cases items with
    | nil =>
      simp only [styleText, List.map_cons, List.map_nil, List.intercalate_singleton]
      exact split_no_sep (no_semicolon (h i List.mem_cons_self))
    | cons j items =>
      have := ih (fun x hx => h x (List.mem_cons_of_mem _ hx)) (by simp)
      rw [styleText, List.map_cons, List.map_cons, List.intercalate_cons_cons, List.append_assoc, List.singleton_append,
        split_append_sep (no_semicolon (h i List.mem_cons_self))]
      rw [styleText, List.map_cons] at this
      rw [this]

theorem attr_pair {w key w' value : Str} (h : (StyleItem.decl w key w' value).WF) :
    stylePairs [⟨key.map Char.toLower, value⟩] = [key.map Char.toLower ++ ':' :: value] := by
  obtain ⟨-, -, h3, h4, -⟩ := h
  rw [stylePairs, if_neg]
  · rfl
  · rw [toLower_ascii_str, map_lower_idem fun c hc => (h3 c hc).1]
    · exact h4
    · intro c hc
      obtain ⟨d, hd, rfl⟩ := List.mem_map.1 hc
      exact (lower_facts (h3 d hd).1).2.1

/-- The declarations of a `style` attribute are those of the attributes it stands for. -/
theorem decls_style {n : Str} (hn : toLower n = "style".toList) (items : List StyleItem) (h : ∀ i ∈ items, i.WF) :
    decls [⟨n, styleText items⟩] = decls (items.filterMap StyleItem.attr) := by
  have e : decls [⟨n, styleText items⟩] = (split ';' (styleText items)).filterMap declOf := by
    rw [decls, stylePairs, if_pos hn, stylePairs, List.append_nil]
  rw [e]
  cases items with
  | nil => rfl
  | cons j js =>
    rw [split_styleText _ h (by simp)]
    generalize j :: js = items at h
    clear e
    induction items with
    | nil => rfl
    | cons i items ih =>
      have := ih fun x hx => h x (List.mem_cons_of_mem _ hx)
      have hi := h i List.mem_cons_self
      cases i with
      | junk s =>
        rw [List.map_cons, List.filterMap_cons_none (f := declOf) (a := (StyleItem.junk s).text) (declOf_junk hi.1), this]; rfl
      | decl w key w' value =>
        rw [show (StyleItem.decl w key w' value :: items).filterMap StyleItem.attr =
          ⟨key.map Char.toLower, value⟩ :: items.filterMap StyleItem.attr from rfl, decls_cons, ← this, List.map_cons,
          List.filterMap_cons, decls, attr_pair hi, declOf_item hi, List.filterMap_cons]
        cases declOf (key.map Char.toLower ++ ':' :: value) <;> rfl

/-- C26, first part: a `style` attribute (the name in any letter case) has exactly the effect of its declarations written as
attributes at its place, with the property names in lower case and without the white space around them; pieces without a colon
do nothing. For every arithmetic, error mode and surrounding, including what happens on errors. -/
theorem C26_style_equals_attributes {n : Str} (hn : toLower n = "style".toList) (items : List StyleItem) (h : ∀ i ∈ items, i.WF)
    (pre post : List Attr) (c : Cursor F) :
    pushStyle (pre ++ ⟨n, styleText items⟩ :: post) c = pushStyle (pre ++ items.filterMap StyleItem.attr ++ post) c := by
  have e : decls (pre ++ ⟨n, styleText items⟩ :: post) = decls (pre ++ items.filterMap StyleItem.attr ++ post) := by
    rw [decls_append, decls_append, decls_append, decls_cons, decls_style hn items h, List.append_assoc]
  rw [pushStyle_decls, pushStyle_decls, e]

theorem readGradURL_none (svg : Svg F) (v : Str) (p q : Option (Pattern F)) (h : readGradURL svg v p = none) :
    readGradURL svg v q = none := by
  unfold readGradURL at *
  split at h
  · rename_i h1
    rw [if_pos h1]
    split at h
    · split at h
      · simp only [Option.map_eq_none_iff] at h ⊢
        exact h
      · rfl
    · rfl
  · rename_i h1
    rw [if_neg h1]

/-- Fields equal in both styles stay so. -/
macro "rel" h:ident : tactic => `(tactic| (constructor <;> intros <;> first
  | rfl
  | (apply ($h).fillOpacity <;> assumption) | (apply ($h).lineOpacity <;> assumption) | (apply ($h).lineWidth <;> assumption)
  | (apply ($h).winding <;> assumption) | (apply ($h).miterLimit <;> assumption) | (apply ($h).lineJoin <;> assumption)
  | (apply ($h).trailLineCap <;> assumption) | (apply ($h).leadLineCap <;> assumption) | (apply ($h).lineGap <;> assumption)
  | (apply ($h).dash <;> assumption) | (apply ($h).dashOffset <;> assumption) | (apply ($h).filler <;> assumption)
  | (apply ($h).liner <;> assumption) | (apply ($h).masks <;> assumption) | (apply ($h).transform <;> assumption)))

/-- A declaration takes two styles that differ in what `k` is about only to two such styles. -/
theorem styleEff_rel {k : Str} {st1 st2 : PathStyle F} (h : Only k st1 st2) {svg : Svg F} {k' v : Str} {st1' : PathStyle F}
    (he : styleEff svg st1 k' v = .set (.ok st1')) : ∃ st2', styleEff svg st2 k' v = .set (.ok st2') ∧ Only k st1' st2' := by
  unfold styleEff at he ⊢
  by_cases h1 : k' = "fill".toList
  · rw [if_pos h1] at he ⊢
    cases hg : readGradURL svg v st1.fillerColor with
    | some g =>
      rw [hg] at he
      simp only [Eff.set.injEq, Res.ok.injEq] at he
      subst he
      cases hg2 : readGradURL svg v st2.fillerColor with
      | some g2 =>
        refine ⟨_, rfl, ?_⟩
        by_cases hk : k = "fill".toList
        · subst hk
          constructor <;> intros <;> first
            | contradiction
            | (apply h.fillOpacity <;> assumption) | (apply h.lineOpacity <;> assumption) | (apply h.lineWidth <;> assumption)
            | (apply h.winding <;> assumption) | (apply h.miterLimit <;> assumption) | (apply h.lineJoin <;> assumption)
            | (apply h.trailLineCap <;> assumption) | (apply h.leadLineCap <;> assumption) | (apply h.lineGap <;> assumption)
            | (apply h.dash <;> assumption) | (apply h.dashOffset <;> assumption) | (apply h.filler <;> assumption)
            | (apply h.liner <;> assumption) | (apply h.masks <;> assumption) | (apply h.transform <;> assumption)
        · rw [h.filler hk, hg, Option.some.injEq] at hg2
          subst hg2
          rel h
      | none => rw [readGradURL_none svg v _ st1.fillerColor hg2] at hg; simp at hg
    | none =>
      rw [readGradURL_none svg v _ st2.fillerColor hg]
      rw [hg, Eff.set.injEq] at he
      obtain ⟨a, ha, he⟩ := res_map_inv he
      subst he
      refine ⟨_, by rw [ha]; rfl, ?_⟩
      rel h
  rw [if_neg h1] at he ⊢
  clear h1
  by_cases h1 : k' = "fill-rule".toList
  · rw [if_pos h1] at he ⊢
    split at he
    · rename_i hv
      simp only [Eff.set.injEq, Res.ok.injEq] at he
      subst he
      refine ⟨_, by rw [if_pos hv], ?_⟩
      rel h
    · rename_i hv
      split at he
      · rename_i hv2
        simp only [Eff.set.injEq, Res.ok.injEq] at he
        subst he
        refine ⟨_, by rw [if_neg hv, if_pos hv2], ?_⟩
        rel h
      · simp at he
  rw [if_neg h1] at he ⊢
  clear h1
  by_cases h1 : k' = "stroke".toList
  · rw [if_pos h1] at he ⊢
    cases hg : readGradURL svg v st1.linerColor with
    | some g =>
      rw [hg] at he
      simp only [Eff.set.injEq, Res.ok.injEq] at he
      subst he
      cases hg2 : readGradURL svg v st2.linerColor with
      | some g2 =>
        refine ⟨_, rfl, ?_⟩
        by_cases hk : k = "stroke".toList
        · subst hk
          constructor <;> intros <;> first
            | contradiction
            | (apply h.fillOpacity <;> assumption) | (apply h.lineOpacity <;> assumption) | (apply h.lineWidth <;> assumption)
            | (apply h.winding <;> assumption) | (apply h.miterLimit <;> assumption) | (apply h.lineJoin <;> assumption)
            | (apply h.trailLineCap <;> assumption) | (apply h.leadLineCap <;> assumption) | (apply h.lineGap <;> assumption)
            | (apply h.dash <;> assumption) | (apply h.dashOffset <;> assumption) | (apply h.filler <;> assumption)
            | (apply h.liner <;> assumption) | (apply h.masks <;> assumption) | (apply h.transform <;> assumption)
        · rw [h.liner hk, hg, Option.some.injEq] at hg2
          subst hg2
          rel h
      | none => rw [readGradURL_none svg v _ st1.linerColor hg2] at hg; simp at hg
    | none =>
      rw [readGradURL_none svg v _ st2.linerColor hg]
      rw [hg, Eff.set.injEq] at he
      obtain ⟨a, ha, he⟩ := res_map_inv he
      subst he
      refine ⟨_, by rw [ha]; rfl, ?_⟩
      rel h
  rw [if_neg h1] at he ⊢
  clear h1
  by_cases h1 : k' = "stroke-linegap".toList
  · rw [if_pos h1] at he ⊢
    cases hc : gapOf v with
    | some g =>
      rw [hc] at he
      simp only [Eff.set.injEq, Res.ok.injEq] at he
      subst he
      refine ⟨_, rfl, ?_⟩
      rel h
    | none => rw [hc] at he; simp at he
  rw [if_neg h1] at he ⊢
  clear h1
  by_cases h1 : k' = "stroke-leadlinecap".toList
  · rw [if_pos h1] at he ⊢
    cases hc : capOf v with
    | some g =>
      rw [hc] at he
      simp only [Eff.set.injEq, Res.ok.injEq] at he
      subst he
      refine ⟨_, rfl, ?_⟩
      rel h
    | none => rw [hc] at he; simp at he
  rw [if_neg h1] at he ⊢
  clear h1
  by_cases h1 : k' = "stroke-linecap".toList
  · rw [if_pos h1] at he ⊢
    cases hc : capOf v with
    | some g =>
      rw [hc] at he
      simp only [Eff.set.injEq, Res.ok.injEq] at he
      subst he
      refine ⟨_, rfl, ?_⟩
      rel h
    | none => rw [hc] at he; simp at he
  rw [if_neg h1] at he ⊢
  clear h1
  by_cases h1 : k' = "stroke-linejoin".toList
  · rw [if_pos h1] at he ⊢
    cases hc : joinOf v with
    | some g =>
      rw [hc] at he
      simp only [Eff.set.injEq, Res.ok.injEq] at he
      subst he
      refine ⟨_, rfl, ?_⟩
      rel h
    | none => rw [hc] at he; simp at he
  rw [if_neg h1] at he ⊢
  clear h1
  by_cases h1 : k' = "stroke-miterlimit".toList
  · rw [if_pos h1] at he ⊢
    rw [Eff.set.injEq] at he
    obtain ⟨a, ha, he⟩ := res_map_inv he
    subst he
    refine ⟨_, by rw [ha]; rfl, ?_⟩
    rel h
  rw [if_neg h1] at he ⊢
  clear h1
  by_cases h1 : k' = "stroke-width".toList
  · rw [if_pos h1] at he ⊢
    rw [Eff.set.injEq] at he
    obtain ⟨a, ha, he⟩ := res_map_inv he
    subst he
    refine ⟨_, by rw [ha]; rfl, ?_⟩
    rel h
  rw [if_neg h1] at he ⊢
  clear h1
  by_cases h1 : k' = "stroke-dashoffset".toList
  · rw [if_pos h1] at he ⊢
    rw [Eff.set.injEq] at he
    obtain ⟨a, ha, he⟩ := res_map_inv he
    subst he
    refine ⟨_, by rw [ha]; rfl, ?_⟩
    rel h
  rw [if_neg h1] at he ⊢
  clear h1
  by_cases h1 : k' = "stroke-dasharray".toList
  · rw [if_pos h1] at he ⊢
    split at he
    · rename_i hv
      rw [Eff.set.injEq] at he
      obtain ⟨a, ha, he⟩ := res_map_inv he
      subst he
      refine ⟨_, by rw [if_pos hv, ha]; rfl, ?_⟩
      rel h
    · rename_i hv
      simp only [Eff.set.injEq, Res.ok.injEq] at he
      subst he
      exact ⟨_, by rw [if_neg hv], h⟩
  rw [if_neg h1] at he ⊢
  clear h1
  by_cases h1 : k' = "opacity".toList ∨ k' = "stroke-opacity".toList ∨ k' = "fill-opacity".toList
  · rw [if_pos h1, Eff.set.injEq] at he
    rw [if_pos h1]
    obtain ⟨a, ha, he⟩ := res_map_inv he
    subst he
    refine ⟨_, by rw [ha]; rfl, ?_⟩
    rcases h1 with h1 | h1 | h1 <;> subst h1
    all_goals
      constructor <;> intros <;> first
        | (apply h.lineWidth <;> assumption)
        | (apply h.winding <;> assumption) | (apply h.miterLimit <;> assumption) | (apply h.lineJoin <;> assumption)
        | (apply h.trailLineCap <;> assumption) | (apply h.leadLineCap <;> assumption) | (apply h.lineGap <;> assumption)
        | (apply h.dash <;> assumption) | (apply h.dashOffset <;> assumption) | (apply h.filler <;> assumption)
        | (apply h.liner <;> assumption) | (apply h.masks <;> assumption) | (apply h.transform <;> assumption)
        | (apply h.fillOpacity <;> assumption) | (apply h.lineOpacity <;> assumption)
        | exact congrArg (· *. a) (h.fillOpacity (by assumption) (by assumption))
        | exact congrArg (· *. a) (h.lineOpacity (by assumption) (by assumption))
  rw [if_neg h1] at he ⊢
  clear h1
  by_cases h1 : k' = "transform".toList
  · rw [if_pos h1] at he ⊢
    simp at he
  rw [if_neg h1] at he ⊢
  clear h1
  by_cases h1 : k' = "mask".toList
  · rw [if_pos h1] at he ⊢
    simp at he
  rw [if_neg h1] at he ⊢
  clear h1
  simp only [Eff.set.injEq, Res.ok.injEq] at he
  subst he
  exact ⟨_, rfl, h⟩

theorem only_symm {k : Str} {st1 st2 : PathStyle F} (h : Only k st1 st2) : Only k st2 st1 := by
  constructor <;> intros <;> symm <;> first
  | (apply h.fillOpacity <;> assumption) | (apply h.lineOpacity <;> assumption) | (apply h.lineWidth <;> assumption)
  | (apply h.winding <;> assumption) | (apply h.miterLimit <;> assumption) | (apply h.lineJoin <;> assumption)
  | (apply h.trailLineCap <;> assumption) | (apply h.leadLineCap <;> assumption) | (apply h.lineGap <;> assumption)
  | (apply h.dash <;> assumption) | (apply h.dashOffset <;> assumption) | (apply h.filler <;> assumption)
  | (apply h.liner <;> assumption) | (apply h.masks <;> assumption) | (apply h.transform <;> assumption)

/-- Whether a value is reported does not depend on the style. -/
theorem styleEff_warn {st1 st2 : PathStyle F} {svg : Svg F} {k v : Str} {m : Msg} (h : styleEff svg st1 k v = .warn m) :
    styleEff svg st2 k v = .warn m := by
  unfold styleEff at h ⊢
  by_cases h1 : k = "fill".toList
  · rw [if_pos h1] at h ⊢
    split at h <;> exact nomatch h
  rw [if_neg h1] at h ⊢
  clear h1
  by_cases h1 : k = "fill-rule".toList
  · rw [if_pos h1] at h ⊢
    split at h
    · exact nomatch h
    · split at h
      · exact nomatch h
      · rename_i g1 g2; rw [if_neg g1, if_neg g2]; exact h
  rw [if_neg h1] at h ⊢
  clear h1
  by_cases h1 : k = "stroke".toList
  · rw [if_pos h1] at h ⊢
    split at h <;> exact nomatch h
  rw [if_neg h1] at h ⊢
  clear h1
  by_cases h1 : k = "stroke-linegap".toList
  · rw [if_pos h1] at h ⊢
    cases hc : gapOf v with
    | some g => rw [hc] at h; exact nomatch h
    | none => rw [hc] at h; exact h
  rw [if_neg h1] at h ⊢
  clear h1
  by_cases h1 : k = "stroke-leadlinecap".toList
  · rw [if_pos h1] at h ⊢
    cases hc : capOf v with
    | some g => rw [hc] at h; exact nomatch h
    | none => rw [hc] at h; exact h
  rw [if_neg h1] at h ⊢
  clear h1
  by_cases h1 : k = "stroke-linecap".toList
  · rw [if_pos h1] at h ⊢
    cases hc : capOf v with
    | some g => rw [hc] at h; exact nomatch h
    | none => rw [hc] at h; exact h
  rw [if_neg h1] at h ⊢
  clear h1
  by_cases h1 : k = "stroke-linejoin".toList
  · rw [if_pos h1] at h ⊢
    cases hc : joinOf v with
    | some g => rw [hc] at h; exact nomatch h
    | none => rw [hc] at h; exact h
  rw [if_neg h1] at h ⊢
  clear h1
  by_cases h1 : k = "stroke-miterlimit".toList
  · rw [if_pos h1] at h ⊢
    exact nomatch h
  rw [if_neg h1] at h ⊢
  clear h1
  by_cases h1 : k = "stroke-width".toList
  · rw [if_pos h1] at h ⊢
    exact nomatch h
  rw [if_neg h1] at h ⊢
  clear h1
  by_cases h1 : k = "stroke-dashoffset".toList
  · rw [if_pos h1] at h ⊢
    exact nomatch h
  rw [if_neg h1] at h ⊢
  clear h1
  by_cases h1 : k = "stroke-dasharray".toList
  · rw [if_pos h1] at h ⊢
    split at h <;> exact nomatch h
  rw [if_neg h1] at h ⊢
  clear h1
  by_cases h1 : k = "opacity".toList ∨ k = "stroke-opacity".toList ∨ k = "fill-opacity".toList
  · rw [if_pos h1] at h ⊢
    exact nomatch h
  rw [if_neg h1] at h ⊢
  clear h1
  by_cases h1 : k = "transform".toList
  · rw [if_pos h1] at h ⊢
    exact nomatch h
  rw [if_neg h1] at h ⊢
  clear h1
  by_cases h1 : k = "mask".toList
  · rw [if_pos h1] at h ⊢
    exact nomatch h
  rw [if_neg h1] at h ⊢
  clear h1
  exact nomatch h

/-- Nothing of another property: the styles are equal. -/
theorem only_nil {st1 st2 : PathStyle F} (h : Only [] st1 st2) : st1 = st2 := by
  obtain ⟨a, b, c, d, ⟨e1, e2, e3, e4, e5⟩, ⟨f1, f2⟩, g, i, j, k⟩ := st1
  obtain ⟨a', b', c', d', ⟨e1', e2', e3', e4', e5'⟩, ⟨f1', f2'⟩, g', i', j', k'⟩ := st2
  obtain ⟨h1, h2, h3, h4, h5, h6, h7, h8, h9, h10, h11, h12, h13, h14, h15⟩ := h
  simp only [ne_eq, show ¬ ([] : Str) = "opacity".toList by decide, show ¬ ([] : Str) = "fill-opacity".toList by decide,
    show ¬ ([] : Str) = "stroke-opacity".toList by decide, show ¬ ([] : Str) = "stroke-width".toList by decide,
    show ¬ ([] : Str) = "fill-rule".toList by decide, show ¬ ([] : Str) = "stroke-miterlimit".toList by decide,
    show ¬ ([] : Str) = "stroke-linejoin".toList by decide, show ¬ ([] : Str) = "stroke-linecap".toList by decide,
    show ¬ ([] : Str) = "stroke-leadlinecap".toList by decide, show ¬ ([] : Str) = "stroke-linegap".toList by decide,
    show ¬ ([] : Str) = "stroke-dasharray".toList by decide, show ¬ ([] : Str) = "stroke-dashoffset".toList by decide,
    show ¬ ([] : Str) = "fill".toList by decide, show ¬ ([] : Str) = "stroke".toList by decide,
    show ¬ ([] : Str) = "mask".toList by decide, show ¬ ([] : Str) = "transform".toList by decide, not_false_eq_true, forall_const]
    at h1 h2 h3 h4 h5 h6 h7 h8 h9 h10 h11 h12 h13 h14 h15
  subst h1 h2 h3 h4 h5 h6 h7 h8 h9 h10 h11 h12 h13 h14 h15
  rfl

/-- Two cursors that differ in the number list and the log only. -/
structure Sim (c d : Cursor F) : Prop where
  eq : d = { c with pc := { c.pc with points := d.pc.points, log := d.pc.log } }

theorem sim_refl (c : Cursor F) : Sim c c := ⟨rfl⟩

theorem sim_points {c d : Cursor F} (h : Sim c d) (ps qs : List F) : Sim (setPoints ps c) (setPoints qs d) := by
  constructor
  rw [h.eq]; rfl

theorem addMask_run (st : PathStyle F) (id : Str) (c : Cursor F) : addMask st id c =
    (.ok { st with masks := (appendMask c.svg.arrays st.masks id).2 },
      { c with svg := { c.svg with arrays := (appendMask c.svg.arrays st.masks id).1 } }) := rfl

/-- One declaration, read from two such cursors for two styles that differ in what `k` is about only. -/
theorem readStyleAttr_sim {k : Str} (hk : k ≠ "mask".toList) {st1 st2 st1' : PathStyle F} (h : Only k st1 st2) {c d c' : Cursor F}
    (hs : Sim c d) {k' v : Str} (hr : readStyleAttr st1 k' v c = (.ok st1', c')) :
    ∃ st2' d', readStyleAttr st2 k' v d = (.ok st2', d') ∧ Only k st1' st2' ∧ Sim c' d' := by
  have hsvg : d.svg = c.svg := by rw [hs.eq]
  have hstack : d.styleStack = c.styleStack := by rw [hs.eq]
  have hmode : d.pc.errorMode = c.pc.errorMode := by rw [hs.eq]
  rw [readStyleAttr_eff] at hr
  simp only [readStyleAttr_eff, hsvg]
  cases he : styleEff c.svg st1 k' v with
  | set r =>
    rw [he] at hr
    simp only [runEff, SM.lift_run, Prod.mk.injEq] at hr
    obtain ⟨rfl, rfl⟩ := hr
    obtain ⟨st2', h1, h2⟩ := styleEff_rel h he
    rw [h1]
    exact ⟨st2', d, rfl, h2, hs⟩
  | warn m =>
    rw [styleEff_warn he]
    rw [he] at hr
    simp only [runEff] at hr ⊢
    rw [SM.bind_run] at hr
    simp only [SM.bind_run]
    unfold handleError at hr ⊢
    rw [hmode]
    split at hr
    · rename_i hm
      split at hm <;> [skip; split at hm] <;> simp only [Prod.mk.injEq, reduceCtorEq, false_and] at hm
      · rename_i hm1 hm2
        simp only [SM.pure_run, Prod.mk.injEq, Res.ok.injEq] at hr
        rw [if_neg hm1, if_pos hm2]
        refine ⟨st2, _, rfl, by rw [← hr.1]; exact h, ?_⟩
        rw [← hr.2, ← hm.2]
        constructor
        rw [hs.eq]
      · rename_i hm1 hm2
        simp only [SM.pure_run, Prod.mk.injEq, Res.ok.injEq] at hr
        rw [if_neg hm1, if_neg hm2]
        refine ⟨st2, _, rfl, by rw [← hr.1]; exact h, ?_⟩
        rw [← hr.2, ← hm.2]
        exact hs
    all_goals simp at hr
  | transform =>
    have hk' := styleEff_transform.1 he
    rw [styleEff_transform.2 hk']
    rw [he] at hr
    simp only [runEff] at hr ⊢
    rw [SM.bind_run] at hr
    simp only [SM.bind_run]
    cases hst : c.styleStack with
    | nil =>
      rw [show parseTransform v c = (.panic .styleStack, c) by rw [parseTransform, SM.bind_run, SM.get_run]; simp only [hst]; rfl] at hr
      simp at hr
    | cons top rest =>
      obtain ⟨r, g, -, hg⟩ := parseTransform_frame (F := F) v top.transform
      rw [hg c top rest hst rfl] at hr
      rw [hg d top rest (hstack.trans hst) rfl]
      cases r with
      | ok m =>
        simp only [SM.pure_run, Prod.mk.injEq, Res.ok.injEq] at hr
        obtain ⟨rfl, rfl⟩ := hr
        refine ⟨_, _, rfl, ?_, sim_points hs _ _⟩
        rel h
      | err e => simp at hr
      | panic e => simp at hr
      | diverge => simp at hr
  | mask =>
    have hk' := styleEff_mask.1 he
    rw [styleEff_mask.2 hk']
    rw [he] at hr
    simp only [runEff] at hr ⊢
    rw [SM.bind_run, SM.lift_run] at hr
    simp only [SM.bind_run, SM.lift_run]
    cases hp : parseSelector v with
    | ok id =>
      rw [hp] at hr
      simp only [addMask_run, Prod.mk.injEq, Res.ok.injEq] at hr
      obtain ⟨rfl, rfl⟩ := hr
      simp only [addMask_run, hsvg, h.masks hk]
      refine ⟨_, _, rfl, ?_, ?_⟩
      · rel h
      · constructor
        rw [hs.eq]
    | err e => rw [hp] at hr; simp at hr
    | panic e => rw [hp] at hr; simp at hr
    | diverge => rw [hp] at hr; simp at hr

theorem declLoop_sim {k : Str} (hk : k ≠ "mask".toList) (l : List (Str × Str)) : ∀ {st1 st2 st1' : PathStyle F} {c d c' : Cursor F},
    Only k st1 st2 → Sim c d → declLoop st1 l c = (.ok st1', c') →
    ∃ st2' d', declLoop st2 l d = (.ok st2', d') ∧ Only k st1' st2' ∧ Sim c' d' := by
  induction l with
  | nil =>
    intro st1 st2 st1' c d c' h hs hr
    simp only [declLoop, SM.pure_run, Prod.mk.injEq, Res.ok.injEq] at hr
    obtain ⟨rfl, rfl⟩ := hr
    exact ⟨st2, d, rfl, h, hs⟩
  | cons x l ih =>
    intro st1 st2 st1' c d c' h hs hr
    rw [declLoop, SM.bind_run] at hr
    cases hx : readStyleAttr st1 x.1 x.2 c with
    | mk r c1 =>
      rw [hx] at hr
      cases r with
      | ok s1 =>
        obtain ⟨s2, d1, e1, e2, e3⟩ := readStyleAttr_sim hk h hs hx
        obtain ⟨st2', d', e4, e5, e6⟩ := ih e2 e3 hr
        exact ⟨st2', d', by rw [declLoop, SM.bind_run, e1]; exact e4, e5, e6⟩
      | err e => simp at hr
      | panic e => simp at hr
      | diverge => simp at hr

/-- The keywords have the effect the table says. -/
theorem styleEff_keyword (svg : Svg F) (st : PathStyle F) : ∀ e ∈ keywords, styleEff svg st e.1.toList e.2.1.toList = .set (.ok (e.2.2 st)) := by
  simp only [keywords, fillRules, caps, joins, gaps, List.map_cons, List.map_nil, List.cons_append, List.nil_append, List.mem_cons,
    List.not_mem_nil, or_false, forall_eq_or_imp, forall_eq]
  refine ⟨?_, ?_, ?_, ?_, ?_, ?_, ?_, ?_, ?_, ?_, ?_, ?_, ?_, ?_, ?_, ?_, ?_, ?_, ?_, ?_, ?_, ?_⟩ <;> rfl

/-- A value that replaces whatever was there: any value of these properties, a dash array other than `none`, a supported keyword,
a paint that is not a reference. -/
def Decisive (k : String) (v : Str) : Prop :=
  k ∈ ["stroke-miterlimit", "stroke-width", "stroke-dashoffset", "transform"] ∨ (k = "stroke-dasharray" ∧ v ≠ "none".toList) ∨
    ((k = "fill" ∨ k = "stroke") ∧ hasPrefix v "url(".toList = false) ∨ ∃ kw f, v = kw.toList ∧ (k, kw, f) ∈ keywords (F := F)

macro "same" h:ident : tactic => `(tactic| (apply only_nil; constructor <;> intros <;> first
  | rfl
  | exact ($h).fillOpacity (by decide) (by decide) | exact ($h).lineOpacity (by decide) (by decide) | exact ($h).lineWidth (by decide)
  | exact ($h).winding (by decide) | exact ($h).miterLimit (by decide) | exact ($h).lineJoin (by decide)
  | exact ($h).trailLineCap (by decide) | exact ($h).leadLineCap (by decide) | exact ($h).lineGap (by decide)
  | exact ($h).dash (by decide) | exact ($h).dashOffset (by decide) | exact ($h).filler (by decide)
  | exact ($h).liner (by decide) | exact ($h).masks (by decide) | exact ($h).transform (by decide)))

theorem keyword_same : ∀ e ∈ keywords (F := F), ∀ st1 st2 : PathStyle F, Only e.1.toList st1 st2 → e.2.2 st1 = e.2.2 st2 := by
  simp only [keywords, fillRules, caps, joins, gaps, List.map_cons, List.map_nil, List.cons_append, List.nil_append, List.mem_cons,
    List.not_mem_nil, or_false, forall_eq_or_imp, forall_eq]
  refine ⟨?_, ?_, ?_, ?_, ?_, ?_, ?_, ?_, ?_, ?_, ?_, ?_, ?_, ?_, ?_, ?_, ?_, ?_, ?_, ?_, ?_, ?_⟩ <;>
  · intro st1 st2 h
    same h

theorem readGradURL_plain {svg : Svg F} {v : Str} (h : hasPrefix v "url(".toList = false) (p : Option (Pattern F)) :
    readGradURL svg v p = none := by
  unfold readGradURL; rw [h]; rfl

/-- After a decisive value nothing is left of the difference. -/
theorem styleEff_decisive {k : String} {v : Str} (hd : Decisive (F := F) k v) (hk : k ≠ "transform") {st1 st2 st1' st2' : PathStyle F}
    (h : Only k.toList st1 st2) {svg : Svg F} (h1 : styleEff svg st1 k.toList v = .set (.ok st1'))
    (h2 : styleEff svg st2 k.toList v = .set (.ok st2')) : st1' = st2' := by
  rcases hd with hd | ⟨rfl, hv⟩ | ⟨hd, hv⟩ | ⟨kw, f, rfl, hm⟩
  · simp only [List.mem_cons, List.not_mem_nil, or_false] at hd
    rcases hd with rfl | rfl | rfl | rfl
    · change Eff.set (do Res.ok { st1 with join := { st1.join with miterLimit := toFix (← parseBasicFloat (F := F) v) } }) = _ at h1
      change Eff.set (do Res.ok { st2 with join := { st2.join with miterLimit := toFix (← parseBasicFloat (F := F) v) } }) = _ at h2
      rw [Eff.set.injEq] at h1 h2
      obtain ⟨a, ha, h1⟩ := res_map_inv h1
      obtain ⟨b, hb, h2⟩ := res_map_inv h2
      rw [ha, Res.ok.injEq] at hb
      subst hb h1 h2
      same h
    · change Eff.set (do Res.ok { st1 with lineWidth := ← resolveUnit svg.viewBox v .width }) = _ at h1
      change Eff.set (do Res.ok { st2 with lineWidth := ← resolveUnit svg.viewBox v .width }) = _ at h2
      rw [Eff.set.injEq] at h1 h2
      obtain ⟨a, ha, h1⟩ := res_map_inv h1
      obtain ⟨b, hb, h2⟩ := res_map_inv h2
      rw [ha, Res.ok.injEq] at hb
      subst hb h1 h2
      same h
    · change Eff.set (do Res.ok { st1 with dash := { st1.dash with dashOffset := ← resolveUnit svg.viewBox v .diag } }) = _ at h1
      change Eff.set (do Res.ok { st2 with dash := { st2.dash with dashOffset := ← resolveUnit svg.viewBox v .diag } }) = _ at h2
      rw [Eff.set.injEq] at h1 h2
      obtain ⟨a, ha, h1⟩ := res_map_inv h1
      obtain ⟨b, hb, h2⟩ := res_map_inv h2
      rw [ha, Res.ok.injEq] at hb
      subst hb h1 h2
      same h
    · exact absurd rfl hk
  · change (if v ≠ "none".toList then Eff.set (do Res.ok { st1 with dash := { st1.dash with dash := ← parseDashes svg.viewBox (splitOnCommaOrSpace v) } }) else .set (.ok st1)) = _ at h1
    change (if v ≠ "none".toList then Eff.set (do Res.ok { st2 with dash := { st2.dash with dash := ← parseDashes svg.viewBox (splitOnCommaOrSpace v) } }) else .set (.ok st2)) = _ at h2
    rw [if_pos hv, Eff.set.injEq] at h1 h2
    obtain ⟨a, ha, h1⟩ := res_map_inv h1
    obtain ⟨b, hb, h2⟩ := res_map_inv h2
    rw [ha, Res.ok.injEq] at hb
    subst hb h1 h2
    same h
  · rcases hd with rfl | rfl
    · rw [styleEff, if_pos rfl, readGradURL_plain hv, Eff.set.injEq] at h1 h2
      obtain ⟨a, ha, h1⟩ := res_map_inv h1
      obtain ⟨b, hb, h2⟩ := res_map_inv h2
      rw [ha, Res.ok.injEq] at hb
      subst hb h1 h2
      same h
    · rw [styleEff, if_neg (by decide), if_neg (by decide), if_pos rfl, readGradURL_plain hv, Eff.set.injEq] at h1 h2
      obtain ⟨a, ha, h1⟩ := res_map_inv h1
      obtain ⟨b, hb, h2⟩ := res_map_inv h2
      rw [ha, Res.ok.injEq] at hb
      subst hb h1 h2
      same h
  · have e1 := styleEff_keyword svg st1 (k, kw, f) hm
    have e2 := styleEff_keyword svg st2 (k, kw, f) hm
    dsimp only at e1 e2
    rw [h1, Eff.set.injEq, Res.ok.injEq] at e1
    rw [h2, Eff.set.injEq, Res.ok.injEq] at e2
    rw [e1, e2]
    exact keyword_same (k, kw, f) hm st1 st2 h

theorem decisive_ne_mask {k : String} {v : Str} (hd : Decisive (F := F) k v) : k.toList ≠ "mask".toList := by
  rcases hd with hd | ⟨rfl, hv⟩ | ⟨hd, hv⟩ | ⟨kw, f, rfl, hm⟩
  · simp only [List.mem_cons, List.not_mem_nil, or_false] at hd
    rcases hd with rfl | rfl | rfl | rfl <;> decide
  · decide
  · rcases hd with rfl | rfl <;> decide
  · simp only [keywords, fillRules, caps, joins, gaps, List.map_cons, List.map_nil, List.cons_append, List.nil_append, List.mem_cons,
      List.not_mem_nil, or_false, Prod.mk.injEq] at hm
    rcases hm with hm | hm | hm | hm | hm | hm | hm | hm | hm | hm | hm | hm | hm | hm | hm | hm | hm | hm | hm | hm | hm | hm <;>
      (rw [hm.1]; decide)

theorem readStyleAttr_decisive {k : String} {v : Str} (hd : Decisive (F := F) k v) {st1 st2 st1' : PathStyle F}
    (h : Only k.toList st1 st2) {c d c' : Cursor F} (hs : Sim c d) (hr : readStyleAttr st1 k.toList v c = (.ok st1', c')) :
    ∃ d', readStyleAttr st2 k.toList v d = (.ok st1', d') ∧ Sim c' d' := by
  obtain ⟨st2', d', h1, h2, h3⟩ := readStyleAttr_sim (decisive_ne_mask hd) h hs hr
  refine ⟨d', ?_, h3⟩
  have hsvg : d.svg = c.svg := by rw [hs.eq]
  have hstack : d.styleStack = c.styleStack := by rw [hs.eq]
  by_cases hk : k = "transform"
  · subst hk
    rw [h1]
    rw [readStyleAttr_eff, styleEff_transform.2 rfl, runEff, SM.bind_run] at hr h1
    cases hst : c.styleStack with
    | nil =>
      rw [show parseTransform v c = (.panic .styleStack, c) by rw [parseTransform, SM.bind_run, SM.get_run]; simp only [hst]; rfl] at hr
      simp at hr
    | cons top rest =>
      obtain ⟨r, g, -, hg⟩ := parseTransform_frame (F := F) v top.transform
      rw [hg c top rest hst rfl] at hr
      rw [hg d top rest (hstack.trans hst) rfl] at h1
      cases r with
      | ok m =>
        simp only [SM.pure_run, Prod.mk.injEq, Res.ok.injEq] at hr h1
        have : st1' = st2' := by
          rw [← hr.1, ← h1.1]
          same h
        rw [this]
      | err e => simp at hr
      | panic e => simp at hr
      | diverge => simp at hr
  · have e : st1' = st2' := by
      rw [readStyleAttr_eff] at hr h1
      rw [hsvg] at h1
      have hw : ∀ st : PathStyle F, (∃ r, styleEff c.svg st k.toList v = .set r) ∨ styleEff c.svg st k.toList v = .warn (.unsupportedValue k.toList v) := by
        intro st
        rcases styleEff_kind c.svg st k.toList v with h' | h' | h' | h'
        · exact .inl h'
        · exact .inr h'
        · exact absurd (String.toList_inj.1 h'.2) hk
        · exact absurd h'.2 (decisive_ne_mask hd)
      rcases hw st1 with ⟨r1, e1⟩ | e1
      · rw [e1] at hr
        simp only [runEff, SM.lift_run, Prod.mk.injEq] at hr
        rw [hr.1] at e1
        obtain ⟨s2, e2, -⟩ := styleEff_rel h e1
        rw [e2] at h1
        simp only [runEff, SM.lift_run, Prod.mk.injEq, Res.ok.injEq] at h1
        rw [← h1.1]
        exact styleEff_decisive hd hk h e1 e2
      · -- a decisive value is never reported
        exfalso
        rcases hd with hd | ⟨rfl, hv⟩ | ⟨hd, hv⟩ | ⟨kw, f, rfl, hm⟩
        · simp only [List.mem_cons, List.not_mem_nil, or_false] at hd
          rcases hd with rfl | rfl | rfl | rfl
          · change Eff.set _ = _ at e1; exact nomatch e1
          · change Eff.set _ = _ at e1; exact nomatch e1
          · change Eff.set _ = _ at e1; exact nomatch e1
          · exact hk rfl
        · change (if v ≠ "none".toList then Eff.set _ else .set _) = _ at e1
          rw [if_pos hv] at e1; exact nomatch e1
        · rcases hd with rfl | rfl
          · rw [styleEff, if_pos rfl, readGradURL_plain hv] at e1; exact nomatch e1
          · rw [styleEff, if_neg (by decide), if_neg (by decide), if_pos rfl, readGradURL_plain hv] at e1; exact nomatch e1
        · rw [styleEff_keyword c.svg st1 (k, kw, f) hm] at e1; exact nomatch e1
    rw [h1, e]

theorem only_of_read {st st' : PathStyle F} {k v : Str} (hk : k ≠ "mask".toList) {c c' : Cursor F} (h : readStyleAttr st k v c = (.ok st', c')) :
    Only k st' st ∧ Sim c' c := by
  refine ⟨only_symm (readStyleAttr_only h), ?_⟩
  rw [readStyleAttr_eff] at h
  rcases styleEff_kind c.svg st k v with ⟨r, he⟩ | he | ⟨he, -⟩ | ⟨-, he⟩
  · rw [he] at h
    simp only [runEff, SM.lift_run, Prod.mk.injEq] at h
    rw [← h.2]; exact sim_refl c
  · rw [he, runEff, SM.bind_run] at h
    unfold handleError at h
    split at h
    · rename_i hm
      simp only [SM.pure_run, Prod.mk.injEq, Res.ok.injEq] at h
      rw [← h.2]
      split at hm
      · simp at hm
      · split at hm <;> simp only [Prod.mk.injEq, true_and] at hm <;> rw [← hm] <;> exact ⟨rfl⟩
    all_goals simp at h
  · rw [he, runEff, SM.bind_run] at h
    cases hst : c.styleStack with
    | nil =>
      rw [show parseTransform v c = (.panic .styleStack, c) by rw [parseTransform, SM.bind_run, SM.get_run]; simp only [hst]; rfl] at h
      simp at h
    | cons top rest =>
      obtain ⟨r, g, -, hg⟩ := parseTransform_frame (F := F) v top.transform
      rw [hg c top rest hst rfl] at h
      cases r with
      | ok m =>
        simp only [SM.pure_run, Prod.mk.injEq] at h
        rw [← h.2]; exact ⟨rfl⟩
      | err e => simp at h
      | panic e => simp at h
      | diverge => simp at h
  · exact absurd he hk

theorem declLoop_later {k : String} {v0 v : Str} (hd : Decisive (F := F) k v) (l1 l2 l3 : List (Str × Str)) {st st' : PathStyle F} {c c' : Cursor F}
    (h : declLoop st (l1 ++ (k.toList, v0) :: (l2 ++ (k.toList, v) :: l3)) c = (.ok st', c')) :
    ∃ d', declLoop st (l1 ++ (l2 ++ (k.toList, v) :: l3)) c = (.ok st', d') ∧ Sim c' d' := by
  have hk := decisive_ne_mask hd
  rw [declLoop_append, SM.bind_run] at h
  rw [declLoop_append]
  simp only [SM.bind_run]
  cases hl1 : declLoop st l1 c with
  | mk r c1 =>
    rw [hl1] at h
    cases r with
    | ok s1 =>
      simp only [declLoop] at h ⊢
      rw [SM.bind_run] at h
      cases hx : readStyleAttr s1 k.toList v0 c1 with
      | mk r c2 =>
        rw [hx] at h
        cases r with
        | ok s2 =>
          obtain ⟨ho, hsim⟩ := only_of_read hk hx
          dsimp only at h
          rw [declLoop_append, SM.bind_run] at h
          rw [declLoop_append]
          simp only [SM.bind_run]
          cases hl2 : declLoop s2 l2 c2 with
          | mk r c3 =>
            rw [hl2] at h
            cases r with
            | ok s3 =>
              obtain ⟨t3, d3, e1, e2, e3⟩ := declLoop_sim hk l2 ho hsim hl2
              rw [e1]
              simp only [declLoop] at h ⊢
              rw [SM.bind_run] at h
              simp only [SM.bind_run]
              cases hy : readStyleAttr s3 k.toList v c3 with
              | mk r c4 =>
                rw [hy] at h
                cases r with
                | ok s4 =>
                  obtain ⟨d4, e4, e5⟩ := readStyleAttr_decisive hd e2 e3 hy
                  rw [e4]
                  obtain ⟨t5, d5, e6, e7, e8⟩ := declLoop_sim (k := []) (by decide) l3 (only_refl [] s4) e5 h
                  rw [only_nil e7]
                  exact ⟨d5, e6, e8⟩
                | err e => simp at h
                | panic e => simp at h
                | diverge => simp at h
            | err e => simp at h
            | panic e => simp at h
            | diverge => simp at h
        | err e => simp at h
        | panic e => simp at h
        | diverge => simp at h
    | err e => simp at h
    | panic e => simp at h
    | diverge => simp at h

/-- A property name as an attribute name: letters in lower case and hyphens, and not `style`. -/
def PropName (k : Str) : Prop := k ≠ "style".toList ∧ ∀ c ∈ k, c.toNat < 128 ∧ c.toLower = c ∧ isSpace c = false ∧ c ≠ ':'

theorem decls_prop {k : Str} (hk : PropName k) (v : Str) : ∃ x, decls [⟨k, v⟩] = [(k, x)] ∧ (Trimmed v → ':' ∉ v → x = v) := by
  have hlow : toLower k = k := by
    rw [toLower_ascii_str fun c hc => (hk.2 c hc).1]
    conv => rhs; rw [← List.map_id k]
    exact List.map_congr_left fun c hc => (hk.2 c hc).2.1
  have htr : Trimmed k := ⟨fun c hc => (hk.2 c (List.mem_of_mem_head? hc)).2.2.1, fun c hc => (hk.2 c (List.mem_of_mem_getLast? hc)).2.2.1⟩
  have e : decls [⟨k, v⟩] = (declOf (k ++ ':' :: v)).toList := by
    rw [decls, stylePairs, if_neg (by rw [hlow]; exact hk.1), stylePairs, List.filterMap_cons]
    cases declOf (k ++ ':' :: v) <;> rfl
  rw [e, declOf, split_append_sep fun hm => (hk.2 _ hm).2.2.2 rfl]
  cases hs : split ':' v with
  | nil => exact absurd hs (split_ne_nil _ _)
  | cons x xs =>
    refine ⟨trimSpace x, by dsimp only; rw [hlow, trimSpace_of_trimmed htr]; rfl, fun h1 h2 => ?_⟩
    rw [split_no_sep h2] at hs
    rw [← (List.cons.inj hs).1, trimSpace_of_trimmed h1]

theorem decisive_name {k : String} {v : Str} (hd : Decisive (F := F) k v) : PropName k.toList := by
  have h : ∀ k ∈ ["stroke-miterlimit", "stroke-width", "stroke-dashoffset", "transform", "stroke-dasharray", "fill", "stroke",
      "fill-rule", "stroke-linecap", "stroke-leadlinecap", "stroke-linejoin", "stroke-linegap"],
      k.toList ≠ "style".toList ∧ ∀ c ∈ k.toList, c.toNat < 128 ∧ c.toLower = c ∧ isSpace c = false ∧ c ≠ ':' := by decide
  apply h
  rcases hd with hd | ⟨rfl, hv⟩ | ⟨hd, hv⟩ | ⟨kw, f, rfl, hm⟩
  · simp only [List.mem_cons, List.not_mem_nil, or_false] at hd ⊢
    tauto
  · decide
  · rcases hd with rfl | rfl <;> decide
  · simp only [keywords, fillRules, caps, joins, gaps, List.map_cons, List.map_nil, List.cons_append, List.nil_append, List.mem_cons,
      List.not_mem_nil, or_false, Prod.mk.injEq] at hm
    rcases hm with hm | hm | hm | hm | hm | hm | hm | hm | hm | hm | hm | hm | hm | hm | hm | hm | hm | hm | hm | hm | hm | hm <;>
      (rw [hm.1]; decide)

/-- C26, second part, for the decisive values: when a property is given twice (as attributes, or in `style` by the first part),
the earlier one might as well not be there. For the other properties (`opacity`, `fill-opacity`, `stroke-opacity`, `mask`) the
claim is false, see `C26_later_false`, as it is for dash arrays `none` and for references to gradients with missing colours. -/
theorem C26_later_decides_partial {k : String} {v0 v : Str} (hd : Decisive (F := F) k v) (hv : Trimmed v) (hc : ':' ∉ v)
    (pre mid post : List Attr) {c c' : Cursor F}
    (h : pushStyle (pre ++ ⟨k.toList, v0⟩ :: (mid ++ ⟨k.toList, v⟩ :: post)) c = (.ok (), c')) :
    ∃ d', pushStyle (pre ++ (mid ++ ⟨k.toList, v⟩ :: post)) c = (.ok (), d') ∧ d'.styleStack = c'.styleStack := by
  obtain ⟨x, hx, -⟩ := decls_prop (decisive_name hd) v0
  obtain ⟨y, hy, hy'⟩ := decls_prop (decisive_name hd) v
  rw [hy' hv hc] at hy
  rw [pushStyle_decls] at h ⊢
  have e1 : decls (pre ++ ⟨k.toList, v0⟩ :: (mid ++ ⟨k.toList, v⟩ :: post)) =
      decls pre ++ (k.toList, x) :: (decls mid ++ (k.toList, v) :: decls post) := by
    rw [decls_append, decls_cons, decls_append, decls_cons ⟨k.toList, v⟩, hx, hy]; rfl
  have e2 : decls (pre ++ (mid ++ ⟨k.toList, v⟩ :: post)) = decls pre ++ (decls mid ++ (k.toList, v) :: decls post) := by
    rw [decls_append, decls_append, decls_cons ⟨k.toList, v⟩, hy]; rfl
  rw [e1] at h
  rw [e2]
  cases hs : c.styleStack with
  | nil => rw [hs] at h; simp at h
  | cons top rest =>
    rw [hs] at h
    dsimp only at h ⊢
    rw [SM.bind_run] at h
    simp only [SM.bind_run]
    have hR := declLoop_styleR (decls pre ++ (k.toList, x) :: (decls mid ++ (k.toList, v) :: decls post)) top c
    cases hl : declLoop top (decls pre ++ (k.toList, x) :: (decls mid ++ (k.toList, v) :: decls post)) c with
    | mk r c1 =>
      rw [hl] at h
      cases r with
      | ok st =>
        obtain ⟨d1, g1, g2⟩ := declLoop_later hd _ _ _ hl
        rw [g1]
        simp only [SM.modify_run, Prod.mk.injEq, true_and] at h ⊢
        refine ⟨_, rfl, ?_⟩
        rw [← h, g2.eq]
      | err e => simp at h
      | panic e => simp at h
      | diverge => simp at h

/-! ### C27 -/

theorem keyword_prop : ∀ k ∈ keywordProps, PropName k.toList := by
  have h : ∀ k ∈ keywordProps, k.toList ≠ "style".toList ∧ ∀ c ∈ k.toList, c.toNat < 128 ∧ c.toLower = c ∧ isSpace c = false ∧ c ≠ ':' := by
    decide
  exact h

theorem keyword_mem {k kw : String} {f : PathStyle F → PathStyle F} (h : (k, kw, f) ∈ keywords) : k ∈ keywordProps := by
  simp only [keywords, fillRules, caps, joins, gaps, List.map_cons, List.map_nil, List.cons_append, List.nil_append, List.mem_cons,
    List.not_mem_nil, or_false, Prod.mk.injEq] at h
  rcases h with h | h | h | h | h | h | h | h | h | h | h | h | h | h | h | h | h | h | h | h | h | h <;>
    (rw [h.1]; decide)

theorem pushStyle_single {k v : Str} (hk : PropName k) (hv : Trimmed v) (hc : ':' ∉ v) {c : Cursor F} {top : PathStyle F}
    {rest : List (PathStyle F)} (hs : c.styleStack = top :: rest) : pushStyle [⟨k, v⟩] c = match readStyleAttr top k v c with
      | (.ok st, c') => (.ok (), { c' with styleStack := st :: c'.styleStack })
      | (.err e, c') => (.err e, c')
      | (.panic s, c') => (.panic s, c')
      | (.diverge, c') => (.diverge, c') := by
  obtain ⟨x, hx, hx'⟩ := decls_prop hk v
  rw [pushStyle_decls, hx, hx' hv hc, hs]
  dsimp only
  rw [SM.bind_run, declLoop, SM.bind_run]
  cases readStyleAttr top k v c with
  | mk r c1 => cases r <;> rfl

/-- C27 for the supported keywords: the style gets exactly the mode of the table, and nothing else changes, in every error mode. -/
theorem C27_keyword {k kw : String} {f : PathStyle F → PathStyle F} (h : (k, kw, f) ∈ keywords) {c : Cursor F} {top : PathStyle F}
    {rest : List (PathStyle F)} (hs : c.styleStack = top :: rest) :
    pushStyle [⟨k.toList, kw.toList⟩] c = (.ok (), { c with styleStack := f top :: top :: rest }) := by
  have hkw : Trimmed kw.toList ∧ ':' ∉ kw.toList := by
    have hall : ∀ kw ∈ ["evenodd", "nonzero", "butt", "round", "square", "cubic", "quadratic", "miter", "miter-clip", "arc-clip", "arc",
      "bevel", "flat"], (∀ c ∈ kw.toList, isSpace c = false) ∧ ':' ∉ kw.toList := by decide
    have : kw ∈ ["evenodd", "nonzero", "butt", "round", "square", "cubic", "quadratic", "miter", "miter-clip", "arc-clip", "arc",
        "bevel", "flat"] := by
      simp only [keywords, fillRules, caps, joins, gaps, List.map_cons, List.map_nil, List.cons_append, List.nil_append, List.mem_cons,
        List.not_mem_nil, or_false, Prod.mk.injEq] at h
      rcases h with h | h | h | h | h | h | h | h | h | h | h | h | h | h | h | h | h | h | h | h | h | h <;>
        (rw [h.2.1]; decide)
    obtain ⟨h1, h2⟩ := hall kw this
    exact ⟨⟨fun c hc => h1 c (List.mem_of_mem_head? hc), fun c hc => h1 c (List.mem_of_mem_getLast? hc)⟩, h2⟩
  rw [pushStyle_single (keyword_prop k (keyword_mem h)) hkw.1 hkw.2 hs, readStyleAttr_eff, styleEff_keyword c.svg top (k, kw, f) h]
  simp only [runEff, SM.lift_run, hs]

theorem styleEff_other {k : String} (hk : k ∈ keywordProps) {v : Str} (hv : ∀ kw f, (k, kw, f) ∈ keywords (F := F) → v ≠ kw.toList)
    (svg : Svg F) (st : PathStyle F) : styleEff svg st k.toList v = .warn (.unsupportedValue k.toList v) := by
  have hgap : (∀ p ∈ gaps, v ≠ p.1.toList) → gapOf v = none := by
    intro h
    simp only [gaps, List.mem_cons, List.not_mem_nil, or_false, forall_eq_or_imp, forall_eq] at h
    unfold gapOf
    rw [if_neg h.1, if_neg h.2.1, if_neg h.2.2.1, if_neg h.2.2.2]
  have hcap : (∀ p ∈ caps, v ≠ p.1.toList) → capOf v = none := by
    intro h
    simp only [caps, List.mem_cons, List.not_mem_nil, or_false, forall_eq_or_imp, forall_eq] at h
    unfold capOf
    rw [if_neg h.1, if_neg h.2.1, if_neg h.2.2.1, if_neg h.2.2.2.1, if_neg h.2.2.2.2]
  have hjoin : (∀ p ∈ joins, v ≠ p.1.toList) → joinOf v = none := by
    intro h
    simp only [joins, List.mem_cons, List.not_mem_nil, or_false, forall_eq_or_imp, forall_eq] at h
    unfold joinOf
    rw [if_neg h.1, if_neg h.2.1, if_neg h.2.2.1, if_neg h.2.2.2.1, if_neg h.2.2.2.2.1, if_neg h.2.2.2.2.2]
  simp only [keywordProps, List.mem_cons, List.not_mem_nil, or_false] at hk
  rcases hk with rfl | rfl | rfl | rfl | rfl
  · have h1 := hv "evenodd" _ (List.mem_append_left _ (List.mem_append_left _ (List.mem_append_left _ (List.mem_append_left _
      (List.mem_map_of_mem (a := ("evenodd", false)) (by simp [fillRules]))))))
    have h2 := hv "nonzero" _ (List.mem_append_left _ (List.mem_append_left _ (List.mem_append_left _ (List.mem_append_left _
      (List.mem_map_of_mem (a := ("nonzero", true)) (by simp [fillRules]))))))
    change (if v = "evenodd".toList then Eff.set _ else if v = "nonzero".toList then Eff.set _ else _) = _
    rw [if_neg h1, if_neg h2]
  · have h := hcap fun p hp => hv p.1 _ (List.mem_append_left _ (List.mem_append_left _ (List.mem_append_left _ (List.mem_append_right _
      (List.mem_map_of_mem hp)))))
    change (match capOf v with | some g => Eff.set _ | none => _) = _
    rw [h]
  · have h := hcap fun p hp => hv p.1 _ (List.mem_append_left _ (List.mem_append_left _ (List.mem_append_right _ (List.mem_map_of_mem hp))))
    change (match capOf v with | some g => Eff.set _ | none => _) = _
    rw [h]
  · have h := hjoin fun p hp => hv p.1 _ (List.mem_append_left _ (List.mem_append_right _ (List.mem_map_of_mem hp)))
    change (match joinOf v with | some g => Eff.set _ | none => _) = _
    rw [h]
  · have h := hgap fun p hp => hv p.1 _ (List.mem_append_right _ (List.mem_map_of_mem hp))
    change (match gapOf v with | some g => Eff.set _ | none => _) = _
    rw [h]

/-- C27 for every other value: an error in strict mode; otherwise the style stays as it is, and warn mode reports it. -/
theorem C27_other {k : String} (hk : k ∈ keywordProps) {v : Str} (hv : ∀ kw f, (k, kw, f) ∈ keywords (F := F) → v ≠ kw.toList)
    (ht : Trimmed v) (hc : ':' ∉ v) {c : Cursor F} {top : PathStyle F} {rest : List (PathStyle F)} (hs : c.styleStack = top :: rest) :
    (c.pc.errorMode = .strict → ∃ e, (pushStyle [⟨k.toList, v⟩] c).1 = .err e) ∧
    (c.pc.errorMode ≠ .strict → ∃ d : List Msg, (if c.pc.errorMode = .warn then d.length = 1 else d = []) ∧ pushStyle [⟨k.toList, v⟩] c =
      (.ok (), { c with styleStack := top :: top :: rest, pc := { c.pc with log := c.pc.log ++ d } })) := by
  rw [pushStyle_single (keyword_prop k hk) ht hc hs, readStyleAttr_eff, styleEff_other hk hv, runEff, SM.bind_run]
  unfold handleError
  constructor
  · intro h
    rw [if_pos h]
    exact ⟨_, rfl⟩
  · intro h
    rw [if_neg h]
    by_cases h2 : c.pc.errorMode = .warn
    · rw [if_pos h2]
      exact ⟨[.unsupportedValue k.toList v], by rw [if_pos h2]; rfl, by simp only [SM.pure_run, hs]⟩
    · rw [if_neg h2]
      exact ⟨[], by rw [if_neg h2], by simp only [SM.pure_run, hs, List.append_nil]⟩

end GoSvg

namespace GoSvg

open Spec

section Examples

attribute [local instance] asciiEnv
attribute [local instance] dummyLibm

/-- The style an element with these attributes gets at the top of a document. -/
def styleOf (attrs : List (String × String)) : Option (PathStyle F64) :=
  match pushStyle (attrsOf attrs) (initCursor (F := F64) .strict) with
  | (.ok _, c) => c.styleStack.head?
  | _ => none

instance (i : StyleItem) : Decidable i.WF := by cases i <;> unfold StyleItem.WF <;> infer_instance
instance (s : Str) : Decidable (Trimmed s) := by unfold Trimmed; infer_instance

/-- C26 applied: `style=" FILL : red; x;stroke-width:2"`. -/
example (c : Cursor F64) : pushStyle (F := F64) (attrsOf [("style", " FILL : red; x;stroke-width:2")]) c =
    pushStyle (F := F64) (attrsOf [("fill", " red"), ("stroke-width", "2")]) c :=
  C26_style_equals_attributes (F := F64) (n := "style".toList) (by decide) [.decl [' '] "FILL".toList [' '] " red".toList, .junk " x".toList,
    .decl [] "stroke-width".toList [] "2".toList] (by decide) [] [] c

/-- C26 with two widths. -/
example : ∃ d', pushStyle (F := F64) (attrsOf [("fill", "red"), ("stroke-width", "2")]) (initCursor .strict) = (.ok (), d') ∧
    d'.styleStack = (pushStyle (F := F64) (attrsOf [("stroke-width", "1"), ("fill", "red"), ("stroke-width", "2")]) (initCursor .strict)).2.styleStack :=
  C26_later_decides_partial (F := F64) (k := "stroke-width") (v0 := "1".toList) (v := "2".toList) (.inl (by decide)) (by decide) (by decide)
    [] (attrsOf [("fill", "red")]) [] (c := initCursor .strict) (by
      have h : (pushStyle (F := F64) (attrsOf [("stroke-width", "1"), ("fill", "red"), ("stroke-width", "2")]) (initCursor .strict)).1 = .ok () := by
        decide +kernel
      exact Prod.ext h rfl)

/-- C26 is false for opacities: two of them multiply. -/
theorem C26_later_false : (styleOf [("opacity", "0.5"), ("opacity", "0.5")]).map (·.fillOpacity) ≠
    (styleOf [("opacity", "0.5")]).map (·.fillOpacity) ∧ (styleOf [("opacity", "0.5")]).isSome = true := by decide +kernel

/-- C26 is false for masks: they accumulate. -/
theorem C26_mask_false : (styleOf [("mask", "url(#a)"), ("mask", "url(#b)")]).map (·.masks.len) ≠
    (styleOf [("mask", "url(#b)")]).map (·.masks.len) ∧ (styleOf [("mask", "url(#b)")]).isSome = true := by decide +kernel

/-- C26 is false for dash arrays: `none` does not take back an earlier one. -/
theorem C26_dash_false : (styleOf [("stroke-dasharray", "1 2"), ("stroke-dasharray", "none")]).map (·.dash.dash) ≠
    (styleOf [("stroke-dasharray", "none")]).map (·.dash.dash) ∧ (styleOf [("stroke-dasharray", "none")]).isSome = true := by decide +kernel

/-- C27 with a keyword. -/
example (c : Cursor F64) (top : PathStyle F64) (rest) (hs : c.styleStack = top :: rest) :
    pushStyle (attrsOf [("fill-rule", "evenodd")]) c = (.ok (), { c with styleStack := { top with useNonZeroWinding := false } :: top :: rest }) :=
  C27_keyword (k := "fill-rule") (kw := "evenodd") (List.mem_append_left _ (List.mem_append_left _ (List.mem_append_left _
    (List.mem_append_left _ (List.mem_cons_self))))) hs

/-- C27 with another value. -/
example : (pushStyle (F := F64) (attrsOf [("stroke-linejoin", "Bevel")]) (initCursor .strict)).1 = .err (.reported (.unsupportedValue "stroke-linejoin".toList "Bevel".toList)) ∧
    (pushStyle (F := F64) (attrsOf [("stroke-linejoin", "Bevel")]) (initCursor .ignore)).1 = .ok () := by decide +kernel

end Examples

end GoSvg
