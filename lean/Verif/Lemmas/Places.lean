import Verif.Lemmas.Walk
import Verif.Props.Parsing

/-! What tokens inside `defs` leave alone, and the texts. -/

set_option linter.unusedSectionVars false

namespace GoSvg

open Spec

variable {F : Type} [GoFloat F] [GoEnv]

open SM (get modify throw lift panic diverge forEach)

/-! ### Inside `defs` -/

/-- Nothing that is collected for the drawing changes, no operation is left over. -/
structure SilentR (c c' : Cursor F) : Prop where
  svgPaths : c'.svg.svgPaths = c.svg.svgPaths
  svgMasks : c'.svg.svgMasks = c.svg.svgMasks
  titles : c'.svg.titles = c.svg.titles
  descs : c'.svg.descriptions = c.svg.descriptions
  path : c'.pc.path = c.pc.path
  mask : c'.mask = c.mask

theorem silentR_pre : Pre (SilentR (F := F)) where
  refl _ := ⟨rfl, rfl, rfl, rfl, rfl, rfl⟩
  trans h1 h2 := ⟨h2.1.trans h1.1, h2.2.trans h1.2, h2.3.trans h1.3, h2.4.trans h1.4, h2.5.trans h1.5, h2.6.trans h1.6⟩

theorem pushStyle_silent (attrs : List Attr) : Keeps SilentR (pushStyle attrs : CM F Unit) := by
  intro c
  have h1 := pushStyle_elem attrs c
  have h2 := pushStyle_flag attrs c
  exact ⟨h1.svgPaths, h1.svgMasks, h2.titles, h2.descs, pushStyle_path attrs c, h2.mask⟩

theorem recordDef_silent (name : Str) (attrs : List Attr) (c : Cursor F) : SilentR c (recordDef name attrs c) := by
  rw [recordDef_eq]; exact ⟨rfl, rfl, rfl, rfl, rfl, rfl⟩

theorem gradBody_silent {c c' : Cursor F} (h : GradBodyR c c') : SilentR c c' := by
  rw [h.eq]; exact ⟨rfl, rfl, rfl, rfl, rfl, rfl⟩

theorem emit_silent {c c' : Cursor F} (h : Emit c c') (hp : c.pc.path = []) : SilentR c c' := by
  cases h with
  | nothing => exact silentR_pre.refl _
  | lost h => exact absurd hp h
  | mask h => exact absurd hp h
  | doc h => exact absurd hp h

/-- A token read inside `defs` of a tidy document, whatever comes of it. -/
theorem silent_step {fuel : Nat} {t : Token} {c : Cursor F} {ch : List Elem} (hf : FlagsAt ch c) (hp : c.pc.path = [])
    (hd : inside "defs" ch = true) (ht : TokP TidyTag ch t) : SilentR c (readToken fuel t c).2 := by
  cases t with
  | start name attrs =>
    have hs := pushStyle_silent attrs c
    have hF := flagR_at (pushStyle_flag attrs c) hf
    rw [readToken, SM.bind_run]
    rcases hr : pushStyle attrs c with ⟨r, d⟩
    rw [hr] at hs hF
    cases r with
    | ok u =>
      dsimp only at hs hF ⊢
      refine silentR_pre.trans hs ?_
      have hdp : d.pc.path = [] := hs.path.trans hp
      -- a gradient or a stop in one
      have key : ∀ df : List Attr → CM F Unit, drawFuncs fuel (useF fuel) name = some df →
          (d.inDefs = false ∨ name = "radialGradient".toList ∨ name = "linearGradient".toList ∨ d.inGrad = true) → SilentR d (df attrs d).2 := by
        intro df hdr hwhy
        by_cases hg : IsGrad name
        · exact silentR_pre.trans (d := withNewGrad d) ⟨rfl, rfl, rfl, rfl, rfl, rfl⟩ (gradBody_silent (grad_start hdr hg attrs d))
        · have hi : insideGrad ch = true := by
            rw [hF.inDefs, hd] at hwhy
            rcases hwhy with h | h | h | h
            · cases h
            · exact absurd (.inr h) hg
            · exact absurd (.inl h) hg
            · rw [← hF.inGrad, h]
          have hn := ht.2.1 hi
          subst hn
          cases hdr
          exact gradBody_silent (stopF_body attrs d)
      rcases readStartElement_cases fuel name attrs d with ⟨h1, h2, h3, h4, h'⟩ |
        ⟨hwhy, ⟨hno, h'⟩ | ⟨df, hdr, ⟨hn, h'⟩ | ⟨-, c2, hEm, h'⟩ | ⟨-, -, h'⟩⟩⟩
      · rw [h']; exact recordDef_silent name attrs d
      · exfalso
        rw [hF.inDefs, hd] at hwhy
        rcases hwhy with h | h | h | h
        · cases h
        · rw [h] at hno; cases hno
        · rw [h] at hno; cases hno
        · rw [ht.2.1 (by rw [← hF.inGrad, h])] at hno; cases hno
      · rw [h']; exact key df hdr hwhy
      · rw [h']
        have := key df hdr hwhy
        exact silentR_pre.trans this (emit_silent hEm (this.path.trans hdp))
      · rw [h']; exact key df hdr hwhy
    | err e => exact hs
    | panic e => exact hs
    | diverge => exact hs
  | stop name =>
    rw [readToken]
    rcases readEnd_cases name c with ⟨-, h⟩ | ⟨c', hne, h, hE⟩
    · rw [h]; exact silentR_pre.refl c
    · have hm : c.mask = none := by
        have := hf.mask
        rw [hf.inMask, hd] at this
        simpa using this
      rw [h]
      have hmk : c'.svg.svgMasks = c.svg.svgMasks ∧ c'.mask = c.mask := by
        unfold readEndElement at h
        rw [SM.bind_run] at h
        obtain ⟨st, rest, hst⟩ := List.exists_cons_of_ne_nil hne
        rw [show popStyle c = (.ok (), { c with styleStack := rest }) by unfold popStyle; rw [hst]] at h
        dsimp only at h
        rw [SM.modify_run] at h
        cases h
        dsimp only
        rw [hm]
        split
        · split <;> exact ⟨rfl, rfl⟩
        split
        · exact ⟨rfl, rfl⟩
        split
        · exact ⟨rfl, rfl⟩
        split
        · exact ⟨rfl, rfl⟩
        split
        · split <;> exact ⟨rfl, rfl⟩
        split
        · exact ⟨rfl, rfl⟩
        · exact ⟨rfl, rfl⟩
      have e := hE.eq
      exact ⟨by rw [e], hmk.1, by rw [e], by rw [e], by rw [hE.pc], hmk.2⟩
  | chars s =>
    rw [readToken]
    have h1 : c.inTitleText = false := by rw [hf.inTitle, hd]; simp
    have h2 : c.inDescText = false := by rw [hf.inDesc, hd]; simp
    unfold readChars
    rw [h1, h2]
    exact ⟨rfl, rfl, rfl, rfl, rfl, rfl⟩
  | other => exact silentR_pre.refl c

/-- Tokens read inside `defs`: `ch0` are the elements up to that `defs`. -/
theorem silent_walk {B : Site → Prop} {fuel : Nat} (ch0 : List Elem) (hd : inside "defs" ch0 = true) :
    ∀ (ts : List Token) (ch ch' : List Elem) (c : Cursor F), TidyRest B (ch ++ ch0) ts c → c.pc.path = [] → openFrom ch ts = some ch' →
      SilentR c (readTokens fuel ts c).2
  | [], _, _, c, _, _, _ => silentR_pre.refl c
  | t :: ts, ch, ch', c, hj, hp, h => by
    obtain ⟨ch1, hst, h⟩ := openFrom_cons h
    have hd' : inside "defs" (ch ++ ch0) = true := by
      unfold inside at hd ⊢
      rw [List.any_append, hd, Bool.or_true]
    have hst' : Step (ch ++ ch0) t (ch1 ++ ch0) := by
      cases hst with
      | start _ _ => exact .start ..
      | stop e => exact .stop e _
      | chars _ => exact .chars ..
      | other => exact .other ..
    have hs := silent_step (fuel := fuel) hj.tidy.flags hp hd' (every_cons hst' hj.places).1
    rw [readTokens_cons, SM.bind_run]
    rcases hr : readToken fuel t c with ⟨r, c1⟩
    rw [hr] at hs
    cases r with
    | ok u =>
      exact silentR_pre.trans hs (silent_walk ch0 hd ts ch1 ch' c1 (tidyRest_step hj hst' hr) (hs.path.trans hp) h)
    | err e => exact hs
    | panic s => exact hs
    | diverge => exact hs

/-! ### The texts -/

/-- What a start tag adds to the titles and descriptions. -/
theorem start_texts {fuel : Nat} {name : Str} {attrs : List Attr} {c c' : Cursor F} {u : Unit} {ch : List Elem} (hc : Inv c)
    (hu : UseFine (.start name attrs) c) (hf : FlagsAt ch c) (ht : TidyTag ch name attrs)
    (h : readToken fuel (.start name attrs) c = (.ok u, c')) :
    c'.svg.titles = c.svg.titles ++ (if name = "title".toList ∧ inside "defs" ch = false then [[]] else []) ∧
    c'.svg.descriptions = c.svg.descriptions ++ (if name = "desc".toList ∧ inside "defs" ch = false then [[]] else []) := by
  have hsil := pushStyle_silent attrs c
  have hF := flagR_at (pushStyle_flag attrs c) hf
  have hi := tokInv_rel (pushStyle_elem attrs c) (pushStyle_keepsGrad attrs c) hc
  have hE := pushStyle_elem attrs c
  rw [readToken, SM.bind_run] at h
  rcases pushStyle_frame attrs c with ⟨top, rest, st, c1, hs, hl, hR, hp⟩ | ⟨hn, -⟩
  · rw [hp] at hsil hF h hi hE
    dsimp only at hsil hF h hi hE
    generalize hdd : ({ c1 with styleStack := st :: c.styleStack } : Cursor F) = d at hsil hF h hi hE
    have hds : d.styleStack ≠ [] := by rw [← hdd]; simp
    have hdefs : DefsOK c → DefsOK d := fun h id ds => by rw [hE.defs]; exact h id ds
    rw [← hsil.titles, ← hsil.descs]
    have none_added : (name ≠ "title".toList ∨ inside "defs" ch = true) → (name ≠ "desc".toList ∨ inside "defs" ch = true) →
        c'.svg.titles = d.svg.titles → c'.svg.descriptions = d.svg.descriptions →
        c'.svg.titles = d.svg.titles ++ (if name = "title".toList ∧ inside "defs" ch = false then [[]] else []) ∧
        c'.svg.descriptions = d.svg.descriptions ++ (if name = "desc".toList ∧ inside "defs" ch = false then [[]] else []) := by
      intro a1 a2 b1 b2
      rw [if_neg (by rintro ⟨x, y⟩; rw [y] at a1; simp [x] at a1), if_neg (by rintro ⟨x, y⟩; rw [y] at a2; simp [x] at a2), b1, b2]
      simp
    have emit_same : ∀ {a b : Cursor F}, Emit a b → b.svg.titles = a.svg.titles ∧ b.svg.descriptions = a.svg.descriptions := by
      intro a b h
      cases h <;> exact ⟨rfl, rfl⟩
    rcases readStartElement_cases fuel name attrs d with ⟨h1, h2, h3, h4, h'⟩ |
      ⟨hwhy, ⟨hno, h'⟩ | ⟨df, hdr, ⟨hn, h'⟩ | ⟨-, c2, hEm, h'⟩ | ⟨-, -, h'⟩⟩⟩
    · rw [h'] at h; cases h
      have := recordDef_silent name attrs d
      rw [hF.inDefs] at h1
      exact none_added (.inr h1) (.inr h1) this.titles this.descs
    · rw [h'] at h
      have := handleError_flag (.cannotProcess name) d
      rw [h] at this
      have hnf := drawFuncs_none_flag hno
      exact none_added (.inl fun e => hnf (by rw [e]; decide)) (.inl fun e => hnf (by rw [e]; decide)) this.titles this.descs
    · rw [h'] at h; rw [h] at hn; exact absurd trivial hn
    · rw [h'] at h
      obtain ⟨hres, rfl⟩ : (df attrs d).1 = .ok u ∧ c2 = c' := by simpa using h
      obtain ⟨m1, m2⟩ := emit_same hEm
      have plain : name ∉ flagTags → (df attrs d).2.svg.titles = d.svg.titles → (df attrs d).2.svg.descriptions = d.svg.descriptions → _ :=
        fun hnf a b => none_added (.inl fun e => hnf (by rw [e]; decide)) (.inl fun e => hnf (by rw [e]; decide)) (m1.trans a) (m2.trans b)
      by_cases hq : name ∈ quietTags
      · have := quiet_flag hdr hq attrs d
        exact plain (quiet_not_flag (.inl hq)) this.titles this.descs
      by_cases hus : name = "use".toList
      · subst hus
        rw [drawFuncs_use] at hdr
        cases hdr
        rcases hu with hu | hu
        · exact absurd rfl (hu attrs)
        · have := (useF_done (B := (· = .color)) fuel attrs d ⟨hds, hdefs hu, hi.attrs, hi.grad⟩).rel
          exact plain (quiet_not_flag (.inr rfl)) this.titles this.descs
      by_cases hg : IsGrad name
      · obtain ⟨g1, -⟩ := grad_flag hdr hg attrs d
        refine none_added (.inl ?_) (.inl ?_) (m1.trans g1.titles) (m2.trans g1.descs)
        · rintro rfl; exact hg.elim (by decide) (by decide)
        · rintro rfl; exact hg.elim (by decide) (by decide)
      have hng : insideGrad ch = false := by
        cases hx : insideGrad ch with
        | false => rfl
        | true => exact absurd (by rw [ht.2.1 hx]; decide) hq
      have hnd : inside "defs" ch = false := by
        rw [← hF.inDefs]
        rcases hwhy with hw | hw | hw | hw
        · exact hw
        · exact absurd (.inr hw) hg
        · exact absurd (.inl hw) hg
        · rw [hF.inGrad, hng] at hw; cases hw
      rcases drawFuncs_cases hdr with ⟨h, -⟩ | ⟨rfl, -⟩ | ⟨rfl, -⟩ | ⟨rfl, -⟩ | ⟨rfl, rfl⟩ | ⟨rfl, rfl⟩ | ⟨rfl, rfl⟩ | ⟨h, -⟩ | ⟨h, -⟩ |
        ⟨rfl, rfl⟩ | ⟨h, -⟩
      · exact absurd (List.mem_append_right _ h) hq
      · exact absurd (by decide) hq
      · exact absurd (by decide) hq
      · exact absurd (by decide) hq
      · rw [m1, m2, if_neg (fun h => absurd h.1 (by decide)), if_pos ⟨rfl, hnd⟩]
        exact ⟨(List.append_nil _).symm, rfl⟩
      · rw [m1, m2, if_pos ⟨rfl, hnd⟩, if_neg (fun h => absurd h.1 (by decide))]
        exact ⟨rfl, (List.append_nil _).symm⟩
      · exact none_added (.inl (by decide)) (.inl (by decide)) m1 m2
      · exact absurd (.inl h) hg
      · exact absurd (.inr h) hg
      · obtain ⟨m, -, hm⟩ := maskF_ok hres
        rw [hm] at m1 m2
        exact none_added (.inl (by decide)) (.inl (by decide)) m1 m2
      · exact absurd h hus
    · rw [h'] at h; cases h
  · rcases hp : pushStyle attrs c with ⟨r, d⟩
    rw [hp] at h hn
    cases r with
    | ok u => exact absurd rfl (hn u)
    | err _ => cases h
    | panic _ => cases h
    | diverge => cases h

theorem stop_texts {fuel : Nat} {name : Str} {c c' : Cursor F} {u : Unit} (h : readToken fuel (.stop name) c = (.ok u, c')) :
    c'.svg.titles = c.svg.titles ∧ c'.svg.descriptions = c.svg.descriptions := by
  have e := (stop_stack h).2.eq
  exact ⟨by rw [e], by rw [e]⟩

theorem chars_texts {fuel : Nat} {s : Str} {c c' : Cursor F} {u : Unit} (h : readToken fuel (.chars s) c = (.ok u, c')) :
    (if c.inTitleText then appendLast c.svg.titles s else some c.svg.titles) = some c'.svg.titles ∧
    (if c.inDescText then appendLast c.svg.descriptions s else some c.svg.descriptions) = some c'.svg.descriptions := by
  rw [readToken] at h
  unfold readChars at h
  dsimp only at h
  generalize (if c.inTitleText = true then appendLast c.svg.titles s else some c.svg.titles) = a at h ⊢
  cases a with
  | none => cases h
  | some a =>
    dsimp only at h
    generalize (if c.inDescText = true then appendLast c.svg.descriptions s else some c.svg.descriptions) = b at h ⊢
    cases b with
    | none => cases h
    | some b => cases h; exact ⟨rfl, rfl⟩

theorem appendLast_snoc (l : List Str) (t s : Str) : appendLast (l ++ [t]) s = some (l ++ [t ++ s]) := by
  induction l with
  | nil => rfl
  | cons a l ih =>
    cases l with
    | nil => rfl
    | cons b l => simp only [List.cons_append, appendLast] at ih ⊢; rw [ih]; rfl

theorem appendLast_split {l l' : List Str} {s : Str} (h : appendLast l s = some l') : ∃ i t, l = i ++ [t] ∧ l' = i ++ [t ++ s] := by
  rcases List.eq_nil_or_concat l with rfl | ⟨i, t, rfl⟩
  · cases h
  · rw [List.concat_eq_append] at h ⊢
    rw [appendLast_snoc] at h
    cases h
    exact ⟨i, t, rfl, rfl⟩

end GoSvg
