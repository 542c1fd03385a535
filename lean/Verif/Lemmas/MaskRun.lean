import Verif.Lemmas.Overlay
import Verif.Spec.Masks
import Verif.Props.Places

/-! A mask and a group with the same content. -/

set_option linter.unusedSectionVars false

namespace GoSvg

open Spec

variable {F : Type} [GoFloat F] [GoEnv]

open SM (get modify throw lift panic diverge forEach)

/-- Complete definitions hold no masks. -/
theorem defDepth_noMask : ∀ {ds : List Definition} {k n : Nat}, defDepth k ds = some n → ∀ d ∈ ds, d.tag ≠ "mask".toList
  | [], _, _, _, _, h => nomatch h
  | d :: ds, k, n, h, e, he => by
    rw [defDepth.eq_def] at h
    dsimp only at h
    have hd : d.tag ≠ "mask".toList := by
      intro hm
      rw [hm, if_neg (by decide), if_neg (by decide), if_neg (by decide)] at h
      cases h
    have ht : ∃ k', defDepth k' ds = some n := by
      split at h
      · cases k with
        | zero => cases h
        | succ k => exact ⟨_, h⟩
      · split at h
        · exact ⟨_, h⟩
        · split at h
          · exact ⟨_, h⟩
          · cases h
    obtain ⟨k', ht⟩ := ht
    rcases List.mem_cons.1 he with rfl | he
    · exact hd
    · exact defDepth_noMask ht e he

theorem defsAt_noMask {ch : List Elem} {c : Cursor F} (h : DefsAt ch c) (hd : inside "defs" ch = false) :
    DefsQ (fun d => d.tag ≠ "mask".toList) c :=
  ⟨fun id ds hf => defDepth_noMask (h.defs id ds hf), by rw [h.outside hd]; intro d h; cases h⟩

/-- Within a mask there are no tags of masks. -/
theorem noMaskTags {base : List Elem} (hm : inside "mask" base = true) (hd : inside "defs" base = false) : ∀ {ts : List Token} {rel rel' : List Elem},
    (∀ e ∈ rel, e.name ≠ "mask".toList ∧ e.name ≠ "defs".toList) → Every TidyTag (rel ++ base) ts → openFrom rel ts = some rel' →
    ∀ t ∈ ts, NotMaskTag t
  | [], _, _, _, _, _, _, h => nomatch h
  | t :: ts, rel, rel', hrel, hev, ho, t', ht' => by
    obtain ⟨rel1, hst, ho⟩ := openFrom_cons ho
    have hmask : inside "mask" (rel ++ base) = true := by
      unfold inside at hm ⊢; rw [List.any_append, hm, Bool.or_true]
    have hdefs : inside "defs" (rel ++ base) = false := by
      unfold inside at hd ⊢
      rw [List.any_append, hd, Bool.or_false, List.any_eq_false]
      intro e he
      simpa using (hrel e he).2
    have key : NotMaskTag t ∧ (∀ e ∈ rel1, e.name ≠ "mask".toList ∧ e.name ≠ "defs".toList) ∧ Every TidyTag (rel1 ++ base) ts := by
      cases hst with
      | start _ name attrs =>
        obtain ⟨hP, hev⟩ := hev
        have h1 : name ≠ "mask".toList := by
          intro h; have := hP.2.2.2.2 hdefs h; rw [hmask] at this; cases this
        have h2 : name ≠ "defs".toList := by
          intro h; have := (hP.1 h).2.1; rw [hmask] at this; cases this
        refine ⟨h1, fun e he => ?_, hev⟩
        rcases List.mem_cons.1 he with rfl | he
        · exact ⟨h1, h2⟩
        · exact hrel e he
      | stop e rel => exact ⟨(hrel e List.mem_cons_self).1, fun e he => hrel e (List.mem_cons_of_mem _ he), hev⟩
      | chars => exact ⟨trivial, hrel, hev⟩
      | other => exact ⟨trivial, hrel, hev⟩
    rcases List.mem_cons.1 ht' with rfl | ht'
    · exact key.1
    · exact noMaskTags hm hd key.2.1 key.2.2 ho t' ht'

/-- The name a mask gets. -/
def NameOf (attrs : List Attr) (id : Str) : Prop :=
  (∃ as bs, attrs = as ++ ⟨"id".toList, id⟩ :: bs ∧ ∀ b ∈ bs, b.name ≠ "id".toList) ∨ (id = [] ∧ ∀ a ∈ attrs, a.name ≠ "id".toList)

theorem maskLoop_name (vb : Bounds F) : ∀ {attrs : List Attr} {v v' : MaskVars F}, Res.loop (maskAttr vb) v attrs = .ok v' →
    (∃ as bs, attrs = as ++ ⟨"id".toList, v'.id⟩ :: bs ∧ ∀ b ∈ bs, b.name ≠ "id".toList) ∨ (v'.id = v.id ∧ ∀ a ∈ attrs, a.name ≠ "id".toList)
  | [], v, v', h => by cases h; exact .inr ⟨rfl, fun a h => nomatch h⟩
  | a :: as, v, v', h => by
    have hl : ∃ w, maskAttr vb v a = .ok w ∧ Res.loop (maskAttr vb) w as = .ok v' := by
      rw [Res.loop] at h
      cases hw : maskAttr vb v a with
      | ok w => rw [hw] at h; exact ⟨w, rfl, h⟩
      | err e => rw [hw] at h; cases h
      | panic e => rw [hw] at h; cases h
      | diverge => rw [hw] at h; cases h
    obtain ⟨w, hw, hl⟩ := hl
    rcases maskLoop_name vb hl with ⟨xs, bs, h1, h2⟩ | ⟨h1, h2⟩
    · exact .inl ⟨a :: xs, bs, by rw [h1]; rfl, h2⟩
    · obtain ⟨an, av⟩ := a
      by_cases hn : an = "id".toList
      · left
        subst hn
        unfold maskAttr at hw
        rw [if_pos rfl] at hw
        split at hw
        · cases hw
        · cases hw
          dsimp only at h1
          exact ⟨[], as, by rw [h1]; rfl, h2⟩
      · right
        refine ⟨h1.trans ?_, fun b hb => ?_⟩
        · unfold maskAttr at hw
          rw [if_neg hn] at hw
          have hb : ∀ {r : Res F} {f : F → MaskVars F}, (∀ x, (f x).id = v.id) → (do Res.ok (f (← r)) : Res (MaskVars F)) = .ok w → w.id = v.id := by
            intro r f hf h
            cases r with
            | ok x => cases h; exact hf x
            | err e => cases h
            | panic e => cases h
            | diverge => cases h
          split at hw
          · exact hb (f := fun x => { v with x := x }) (fun _ => rfl) hw
          · split at hw
            · exact hb (f := fun x => { v with y := x }) (fun _ => rfl) hw
            · split at hw
              · exact hb (f := fun x => { v with w := x }) (fun _ => rfl) hw
              · split at hw
                · exact hb (f := fun x => { v with h := x }) (fun _ => rfl) hw
                · cases hw; rfl
        · rcases List.mem_cons.1 hb with rfl | hb
          · exact hn
          · exact h2 b hb

theorem maskF_named {attrs : List Attr} {c : Cursor F} {u : Unit} (h : (maskF attrs c).1 = .ok u) :
    ∃ m : SvgMask F, m.svgPaths = [] ∧ NameOf attrs m.id ∧ maskF attrs c = (.ok (), { c with inMask := true, mask := some m }) := by
  unfold maskF at h ⊢
  rw [SM.bind_run, SM.get_run] at h ⊢
  dsimp only at h ⊢
  rw [SM.bind_run, SM.lift_run] at h ⊢
  cases hr : Res.loop (maskAttr c.svg.viewBox) ⟨[], num 0, num 0, num 0, num 0⟩ attrs with
  | ok v => exact ⟨⟨v.id, v.x, v.y, v.w, v.h, [], Matrix2D.identity⟩, rfl, maskLoop_name _ hr, rfl⟩
  | err e => rw [hr] at h; cases h
  | panic s => rw [hr] at h; cases h
  | diverge => rw [hr] at h; cases h

theorem tidy_prefix {pre post : List Token} (h : Tidy (pre ++ post)) : Tidy pre := by
  obtain ⟨ch', hch'⟩ := Option.isSome_iff_exists.1 h.nested
  obtain ⟨ch, hch, -⟩ := openFrom_prefix hch'
  refine ⟨by unfold WellNested; rw [hch]; rfl, ((every_append pre post hch).1 h.places).1, ?_⟩
  rcases h.defs with h | h
  · exact .inl fun a ha => h a (List.mem_append_left _ ha)
  · exact .inr ((every_append pre post hch).1 h).1

theorem mask_end {fuel : Nat} {e : Cursor F} {mk : SvgMask F} (h : e.mask = some mk) :
    readTokens fuel [.stop "mask".toList] e = match e.styleStack with
      | [] => (.panic .styleStack, e)
      | _ :: rest => (.ok (), { e with styleStack := rest, svg := { e.svg with svgMasks := e.svg.svgMasks.insert mk.id mk }, mask := none, inMask := false }) := by
  rw [readTokens_cons, SM.bind_run, readToken]
  unfold readEndElement
  rw [SM.bind_run]
  unfold popStyle
  cases hs : e.styleStack with
  | nil => rfl
  | cons st rest =>
    dsimp only
    rw [SM.modify_run, if_neg (by decide), if_pos rfl]
    dsimp only
    rw [h]
    rfl

theorem group_end {fuel : Nat} {d : Cursor F} (h : d.inDefs = false) :
    readTokens fuel [.stop "g".toList] d = match d.styleStack with
      | [] => (.panic .styleStack, d)
      | _ :: rest => (.ok (), { d with styleStack := rest }) := by
  rw [readTokens_cons, SM.bind_run, readToken]
  unfold readEndElement
  rw [SM.bind_run]
  unfold popStyle
  cases hs : d.styleStack with
  | nil => rfl
  | cons st rest =>
    dsimp only
    rw [SM.modify_run, if_pos rfl]
    dsimp only
    rw [if_neg (by rw [h]; decide)]
    rfl

/-- What a mask element leaves behind, beside what a group leaves. -/
theorem mask_element {fuel : Nat} {m : ErrorMode} {pre body post : List Token} {attrs : List Attr} {ch : List Elem} {c c' : Cursor F}
    (ht : Tidy (pre ++ element "mask" attrs body ++ post)) (hch : openFrom [] pre = some ch) (hd : inside "defs" ch = false)
    (hb : openFrom [] body = some []) (hr : readTokens fuel pre (initCursor m) = (.ok (), c))
    (hr' : readTokens fuel (element "mask" attrs body) c = (.ok (), c')) :
    ∃ mk : SvgMask F, NameOf attrs mk.id ∧ c'.svg.svgPaths = c.svg.svgPaths ∧ c'.svg.svgMasks = c.svg.svgMasks.insert mk.id mk ∧
      c'.inMask = false ∧ c'.mask = none ∧
      readTokens fuel (element "g" attrs body) c = (.ok (), c'.ov ⟨c.svg.svgPaths ++ mk.svgPaths, c.svg.svgMasks, false, none⟩) := by
  obtain ⟨ch1, hch1, hrest⟩ := tidy_split (F := F) (pre := pre) (els := element "mask" attrs body ++ post) (by rwa [← List.append_assoc])
  rw [hch] at hch1
  cases hch1
  have hj := hrest (· = .color) fuel m c (tokensOK_color _) hr
  have hpath : c.pc.path = [] := by
    have := readTokens_clean fuel pre (initCursor (F := F) m) rfl (by rw [hr]; trivial)
    rwa [hr] at this
  have hdc : c.inDefs = false := hj.tidy.flags.inDefs.trans hd
  have htag := hj.places
  have hmask : inside "mask" ch = false := htag.1.2.2.2.2 hd rfl
  have hcm : c.inMask = false := by rw [hj.tidy.flags.inMask, hmask]; rfl
  have hcn : c.mask = none := by
    have := hj.tidy.flags.mask; rw [hcm] at this; exact Option.isSome_eq_false_iff.1 this |> Option.isNone_iff_eq_none.1
  -- the start tags
  unfold element at hr' ⊢
  rw [readTokens_cons, SM.bind_run] at hr' ⊢
  have h1 := pushStyle_elem attrs c
  have h2 := pushStyle_flag attrs c
  have h3 := pushStyle_path attrs c
  rw [readToken, SM.bind_run] at hr' ⊢
  rcases hps : pushStyle attrs c with ⟨r, d⟩
  rw [hps] at h1 h2 h3 hr'
  cases r with
  | err e => cases hr'
  | panic e => cases hr'
  | diverge => cases hr'
  | ok u =>
    dsimp only at h1 h2 h3 hr' ⊢
    have hpd : d.pc.path = [] := (h3 : _ = _).trans hpath
    have hdd : d.inDefs = false := h2.inDefs.trans hdc
    have hg : readStartElement fuel "g".toList attrs d = (.ok (), d) := by
      unfold readStartElement
      dsimp only
      rw [if_neg (by rintro ⟨h, -⟩; rw [hdd] at h; cases h)]
      have : drawFuncs fuel (useF fuel) "g".toList = some fun _ => (pure () : CM F Unit) := rfl
      rw [this]
      dsimp only
      rw [SM.pure_run]
      have he : emitPath d = (.ok (), d) := by unfold emitPath; rw [hpd]
      dsimp only
      rw [he]
    rw [hg]
    dsimp only
    have hk : ∃ mk : SvgMask F, mk.svgPaths = [] ∧ NameOf attrs mk.id ∧
        readStartElement fuel "mask".toList attrs d = (.ok (), { d with inMask := true, mask := some mk }) := by
      unfold readStartElement at hr' ⊢
      dsimp only at hr' ⊢
      rw [if_neg (by rintro ⟨h, -⟩; rw [hdd] at h; cases h)] at hr' ⊢
      have : drawFuncs (F := F) fuel (useF fuel) "mask".toList = some maskF := rfl
      rw [this] at hr' ⊢
      dsimp only at hr' ⊢
      cases hmf : (maskF attrs d).1 with
      | ok u =>
        obtain ⟨mk, a1, a2, a3⟩ := maskF_named hmf
        refine ⟨mk, a1, a2, ?_⟩
        rw [a3]
        dsimp only
        have he : emitPath { d with inMask := true, mask := some mk } = (.ok (), { d with inMask := true, mask := some mk }) := by
          unfold emitPath; dsimp only; rw [hpd]
        rw [he]
      | err e =>
        exfalso
        rcases hq : maskF attrs d with ⟨r, d1⟩
        rw [hq] at hmf hr'
        dsimp only at hmf
        subst hmf
        dsimp only at hr'
        rcases he : emitPath d1 with ⟨s, d2⟩
        rw [he] at hr'
        cases s <;> cases hr'
      | panic e =>
        exfalso
        rcases hq : maskF attrs d with ⟨r, d1⟩
        rw [hq] at hmf hr'
        dsimp only at hmf
        subst hmf
        cases hr'
      | diverge =>
        exfalso
        rcases hq : maskF attrs d with ⟨r, d1⟩
        rw [hq] at hmf hr'
        dsimp only at hmf
        subst hmf
        cases hr'
    obtain ⟨mk0, hmk0, hname, hk⟩ := hk
    rw [hk] at hr'
    dsimp only at hr'
    -- the content
    have hfirst : readToken fuel (.start "mask".toList attrs) c = (.ok (), { d with inMask := true, mask := some mk0 }) := by
      rw [readToken, SM.bind_run, hps]; exact hk
    have hj1 := tidyRest_step (ts := body ++ [.stop "mask".toList] ++ post) hj (.start ch "mask".toList attrs) hfirst
    have hdm : inside "defs" (⟨"mask".toList, attrs⟩ :: ch) = false := by rw [inside_tag_ne "defs" (by decide)]; exact hd
    have hbody : ∀ t ∈ body, NotMaskTag t := by
      have hp := hj1.places
      have hl : openFrom (⟨"mask".toList, attrs⟩ :: ch) body = some (⟨"mask".toList, attrs⟩ :: ch) :=
        openFrom_lift (⟨"mask".toList, attrs⟩ :: ch) body [] [] hb
      rw [List.append_assoc, every_append body _ hl] at hp
      exact noMaskTags (base := ⟨"mask".toList, attrs⟩ :: ch) (inside_cons_self rfl _) hdm (rel := []) (fun e h => nomatch h) hp.1 hb
    have huse : NoUse body ∨ DefsQ (fun d => d.tag ≠ "mask".toList) { d with inMask := true, mask := some mk0 } := by
      rcases hj1.defs with h | ⟨-, h⟩
      · exact .inl fun a ha => h a (by rw [List.append_assoc]; exact List.mem_append_left _ ha)
      · exact .inr (defsAt_noMask h hdm)
    have hag : AsGroup mk0 c.svg.svgPaths c.svg.svgMasks { d with inMask := true, mask := some mk0 } d := by
      refine ⟨rfl, h1.svgPaths, h1.svgMasks, mk0, rfl, rfl, ?_⟩
      have e1 : d.inMask = false := h2.inMask.trans hcm
      have e2 : d.mask = none := h2.mask.trans hcn
      have e3 := h1.svgPaths
      have e4 := h1.svgMasks
      rw [hmk0, List.append_nil, ← e3, ← e4, ← e1, ← e2]
      rfl
    have hal := readTokens_alongside (fuel := fuel) hbody huse hag
    rw [readTokens_append, SM.bind_run] at hr' ⊢
    rcases hq : readTokens fuel body { d with inMask := true, mask := some mk0 } with ⟨r, e⟩
    rcases hq' : readTokens fuel body d with ⟨r', e'⟩
    rw [hq, hq'] at hal
    rw [hq] at hr'
    obtain ⟨hal1, hal2⟩ := hal
    dsimp only at hal1 hal2
    subst hal1
    cases r' with
    | err e => cases hr'
    | panic e => cases hr'
    | diverge => cases hr'
    | ok u =>
      obtain ⟨g1, g2, g3, mk, g4, gid, g5⟩ := hal2 rfl
      dsimp only at hr' ⊢
      -- the end tags
      have hdd2 : e.inDefs = false := by
        have hj2 := tidy_nil_split (F := F) (pre := pre ++ .start "mask".toList attrs :: body) (ch := ⟨"mask".toList, attrs⟩ :: ch) ?_ ?_ fuel m (c := e) ?_
        · exact hj2.flags.inDefs.trans hdm
        · exact tidy_prefix (post := [.stop "mask".toList] ++ post) (by
            simpa only [element, List.append_assoc, List.cons_append] using ht)
        · rw [openFrom_append, hch]
          exact openFrom_lift (⟨"mask".toList, attrs⟩ :: ch) body [] [] hb
        · rw [readTokens_append, SM.bind_run, hr]
          dsimp only
          rw [readTokens_cons, SM.bind_run, hfirst]
          exact hq
      rw [mask_end g4] at hr'
      subst g5
      rw [group_end (d := e.ov _) hdd2]
      cases hst : e.styleStack with
      | nil => rw [hst] at hr'; cases hr'
      | cons st rest =>
        rw [hst] at hr'
        cases hr'
        refine ⟨mk, ?_, g2, by rw [← g3], rfl, rfl, ?_⟩
        · have : mk.id = mk0.id := (SvgMask.mk.inj gid).1
          rw [this]; exact hname
        · rw [show (e.ov ⟨c.svg.svgPaths ++ mk.svgPaths, c.svg.svgMasks, false, none⟩).styleStack = st :: rest from hst]
          rfl

/-! ### The rest of the document -/

/-- The second state is the first one with some more paths in the middle, and perhaps other masks. -/
def Beside (base extra : List (SvgPath F)) (c d : Cursor F) : Prop :=
  ∃ rest ms, c.svg.svgPaths = base ++ rest ∧ d = c.ov ⟨base ++ extra ++ rest, ms, c.inMask, c.mask⟩

/-- Both runs end alike. -/
def BothBeside (base extra : List (SvgPath F)) (p q : Res Unit × Cursor F) : Prop := q.1 = p.1 ∧ Beside base extra p.2 q.2

theorem beside_comm {base extra : List (SvgPath F)} {m : CM F Unit} {c d : Cursor F}
    (hm : ∀ o, m (c.ov o) = ((m c).1, (m c).2.ov o)) (h : Beside base extra c d) : BothBeside base extra (m c) (m d) := by
  obtain ⟨rest, ms, h1, rfl⟩ := h
  have hown := hm c.own
  rw [ov_own] at hown
  have e : (m c).2 = (m c).2.ov c.own := congrArg Prod.snd hown
  have e1 : (m c).2.svg.svgPaths = c.svg.svgPaths := by rw [e]; rfl
  have e2 : (m c).2.inMask = c.inMask := by rw [e]; rfl
  have e3 : (m c).2.mask = c.mask := by rw [e]; rfl
  rw [hm]
  exact ⟨rfl, rest, ms, by rw [e1]; exact h1, by rw [e2, e3]⟩

theorem beside_emit {base extra : List (SvgPath F)} {c d : Cursor F} (h : Beside base extra c d) :
    BothBeside base extra (emitPath c) (emitPath d) := by
  obtain ⟨rest, ms, h1, rfl⟩ := h
  obtain ⟨pc, svg, stack, grad, t1, t2, g, inD, inM, cd, mask⟩ := c
  dsimp only at h1
  unfold emitPath Cursor.ov
  dsimp only
  cases pc.path with
  | nil => exact ⟨rfl, rest, ms, h1, rfl⟩
  | cons p ps =>
    cases inM with
    | true =>
      cases mask with
      | none => exact ⟨rfl, rest, ms, h1, rfl⟩
      | some mk =>
        cases stack with
        | nil => exact ⟨rfl, rest, ms, h1, rfl⟩
        | cons st stack => exact ⟨rfl, rest, ms, h1, rfl⟩
    | false =>
      cases stack with
      | nil => exact ⟨rfl, rest, ms, h1, rfl⟩
      | cons st stack =>
        refine ⟨rfl, rest ++ [⟨p :: ps, st⟩], ms, ?_, ?_⟩
        · show svg.svgPaths ++ [_] = _
          rw [h1, List.append_assoc]
        · simp only [Cursor.ov, List.append_assoc]

theorem beside_maskF {base extra : List (SvgPath F)} (attrs : List Attr) {c d : Cursor F} (h : Beside base extra c d) :
    BothBeside base extra (maskF attrs c) (maskF attrs d) := by
  obtain ⟨rest, ms, h1, rfl⟩ := h
  unfold maskF
  rw [SM.bind_run, SM.get_run, SM.bind_run, SM.get_run]
  dsimp only
  rw [SM.bind_run, SM.lift_run, SM.bind_run, SM.lift_run]
  rw [show (c.ov ⟨base ++ extra ++ rest, ms, c.inMask, c.mask⟩).svg.viewBox = c.svg.viewBox from rfl]
  cases Res.loop (maskAttr c.svg.viewBox) ⟨[], num 0, num 0, num 0, num 0⟩ attrs with
  | ok v => exact ⟨rfl, rest, ms, h1, rfl⟩
  | err e => exact ⟨rfl, rest, ms, h1, rfl⟩
  | panic e => exact ⟨rfl, rest, ms, h1, rfl⟩
  | diverge => exact ⟨rfl, rest, ms, h1, rfl⟩

theorem beside_readStart {base extra : List (SvgPath F)} {fuel : Nat} {name : Str} {attrs : List Attr} {c d : Cursor F}
    (hu : name ≠ "use".toList ∨ NoMaskDefs c) (h : Beside base extra c d) :
    BothBeside base extra (readStartElement fuel name attrs c) (readStartElement fuel name attrs d) := by
  have hdefs : d.inDefs = c.inDefs := by obtain ⟨_, _, -, e⟩ := h; rw [e]; rfl
  have hgrad : d.inGrad = c.inGrad := by obtain ⟨_, _, -, e⟩ := h; rw [e]; rfl
  unfold readStartElement
  dsimp only
  rw [hdefs, hgrad]
  by_cases hc : c.inDefs = true ∧ ¬ (name = "radialGradient".toList ∨ name = "linearGradient".toList ∨ c.inGrad = true)
  · rw [if_pos hc, if_pos hc]
    exact beside_comm (m := fun c => (.ok (), recordDef name attrs c)) (fun o => by dsimp only; rw [recordDef_comm]) h
  · rw [if_neg hc, if_neg hc]
    cases hd : drawFuncs (F := F) fuel (useF fuel) name with
    | none => exact beside_comm (handleError_comm (.cannotProcess name) (o := ·) c) h
    | some df =>
      have hdf : BothBeside base extra (df attrs c) (df attrs d) := by
        by_cases hn' : name = "use".toList
        · subst hn'; rw [drawFuncs_use] at hd; cases hd
          exact beside_comm (fun o => useF_comm fuel attrs c (hu.resolve_left fun h => h rfl)) h
        · by_cases hn : name = "mask".toList
          · subst hn
            have : drawFuncs (F := F) fuel (useF fuel) "mask".toList = some maskF := rfl
            rw [this] at hd
            cases hd
            exact beside_maskF attrs h
          · exact beside_comm (fun o => drawFuncs_comm hd hn hn' attrs c) h
      obtain ⟨h1, h2⟩ := hdf
      dsimp only
      rcases hr : df attrs c with ⟨r, c1⟩
      rcases hr' : df attrs d with ⟨r', d1⟩
      rw [hr, hr'] at h1 h2
      dsimp only at h1 h2
      subst h1
      obtain ⟨e1, e2⟩ := beside_emit h2
      rcases he : emitPath c1 with ⟨s, c2⟩
      rcases he' : emitPath d1 with ⟨s', d2⟩
      rw [he, he'] at e1 e2
      dsimp only at e1 e2
      subst e1
      cases r' with
      | panic s => exact ⟨rfl, h2⟩
      | diverge => exact ⟨rfl, h2⟩
      | ok u =>
        dsimp only
        rw [he, he']
        cases s' <;> exact ⟨rfl, e2⟩
      | err u =>
        dsimp only
        rw [he, he']
        cases s' <;> exact ⟨rfl, e2⟩

theorem beside_maskEnd {base extra : List (SvgPath F)} {c d : Cursor F} (h : Beside base extra c d) :
    BothBeside base extra (readEndElement "mask".toList c) (readEndElement "mask".toList d) := by
  obtain ⟨rest, ms, h1, rfl⟩ := h
  obtain ⟨pc, svg, stack, grad, t1, t2, g, inD, inM, cd, mask⟩ := c
  unfold readEndElement
  rw [SM.bind_run, SM.bind_run]
  unfold popStyle Cursor.ov
  dsimp only
  cases stack with
  | nil => exact ⟨rfl, rest, ms, h1, rfl⟩
  | cons st stack =>
    dsimp only
    rw [SM.modify_run, SM.modify_run, if_neg (by decide), if_pos rfl, if_neg (by decide), if_pos rfl]
    dsimp only
    cases mask with
    | none => exact ⟨rfl, rest, ms, h1, rfl⟩
    | some mk => exact ⟨rfl, rest, ms.insert mk.id mk, h1, rfl⟩

theorem beside_readToken {base extra : List (SvgPath F)} {fuel : Nat} {t : Token} {c d : Cursor F}
    (hu : (∀ attrs, t ≠ .start "use".toList attrs) ∨ NoMaskDefs c) (h : Beside base extra c d) :
    BothBeside base extra (readToken fuel t c) (readToken fuel t d) := by
  cases t with
  | start name attrs =>
    rw [readToken, SM.bind_run, SM.bind_run]
    obtain ⟨h1, h2⟩ := beside_comm (pushStyle_comm attrs (o := ·) c) h
    have hE := pushStyle_elem attrs c
    rcases hr : pushStyle attrs c with ⟨r, c1⟩
    rcases hr' : pushStyle attrs d with ⟨r', d1⟩
    rw [hr, hr'] at h1 h2
    rw [hr] at hE
    dsimp only at h1 h2 hE
    subst h1
    cases r' with
    | ok u =>
      refine beside_readStart ?_ h2
      rcases hu with hu | hu
      · exact .inl fun h => hu attrs (by rw [h])
      · exact .inr (noMaskDefs_elem hE hu)
    | err e => exact ⟨rfl, h2⟩
    | panic e => exact ⟨rfl, h2⟩
    | diverge => exact ⟨rfl, h2⟩
  | stop name =>
    by_cases hn : name = "mask".toList
    · subst hn; exact beside_maskEnd h
    · exact beside_comm (readEnd_comm (name := name) hn (o := ·) c) h
  | chars s => exact beside_comm (readChars_comm s (o := ·) c) h
  | other => exact ⟨rfl, h⟩

theorem beside_readTokens {B : Site → Prop} {base extra : List (SvgPath F)} {fuel : Nat} : ∀ {ts : List Token} {ch ch' : List Elem} {c d : Cursor F},
    TidyRest B ch ts c → openFrom ch ts = some ch' → Beside base extra c d → BothBeside base extra (readTokens fuel ts c) (readTokens fuel ts d)
  | [], _, _, _, _, _, _, h => ⟨rfl, h⟩
  | t :: ts, ch, ch', c, d, hj, ho, h => by
    obtain ⟨ch1, hst, ho⟩ := openFrom_cons ho
    rw [readTokens_cons, readTokens_cons, SM.bind_run, SM.bind_run]
    have hu1 : (∀ attrs, t ≠ .start "use".toList attrs) ∨ NoMaskDefs c := by
      rcases hj.defs with hu | ⟨-, hu⟩
      · exact .inl (noUse_cons hu).1
      · exact .inr fun id ds hf => defDepth_noMask (hu.defs id ds hf)
    obtain ⟨h1, h2⟩ := beside_readToken (fuel := fuel) hu1 h
    rcases hr : readToken fuel t c with ⟨r, c1⟩
    rcases hr' : readToken fuel t d with ⟨r', d1⟩
    rw [hr, hr'] at h1 h2
    dsimp only at h1 h2
    subst h1
    cases r' with
    | ok u => exact beside_readTokens (tidyRest_step hj hst hr) ho h2
    | err e => exact ⟨rfl, h2⟩
    | panic e => exact ⟨rfl, h2⟩
    | diverge => exact ⟨rfl, h2⟩

/-- The innermost open element and what has been read since its start tag. -/
theorem open_split (n : Nat) : ∀ {ts : List Token} {e : Elem} {ch : List Elem}, ts.length = n → openFrom [] ts = some (e :: ch) →
    ∃ pre body, ts = pre ++ .start e.name e.attrs :: body ∧ openFrom [] pre = some ch ∧ openFrom [] body = some [] := by
  induction n using Nat.strongRecOn with
  | _ n ih =>
    intro ts e ch hn ho
    rcases List.eq_nil_or_concat ts with rfl | ⟨ts, t, rfl⟩
    · cases ho
    rw [List.concat_eq_append] at ho hn ⊢
    rw [List.length_append] at hn
    have hlt : ts.length < n := by rw [← hn]; exact Nat.lt_succ_self _
    obtain ⟨c1, h1, ho⟩ := openFrom_prefix ho
    obtain ⟨c2, hst, h2⟩ := openFrom_cons ho
    cases h2
    have same : c1 = e :: ch → (∀ c : List Elem, openFrom c [t] = some c) →
        ∃ pre body, ts ++ [t] = pre ++ .start e.name e.attrs :: body ∧ openFrom [] pre = some ch ∧ openFrom [] body = some [] := by
      intro hc hs
      obtain ⟨pre, body, e1, e2, e3⟩ := ih _ hlt rfl (hc ▸ h1)
      refine ⟨pre, body ++ [t], by rw [e1]; simp, e2, ?_⟩
      rw [openFrom_append, e3]
      exact hs []
    cases hst with
    | start _ name attrs => exact ⟨ts, [], rfl, h1, rfl⟩
    | stop e' _ =>
      obtain ⟨pre1, body1, e1, e2, e3⟩ := ih _ hlt rfl h1
      have hl1 : pre1.length < n := by
        have := congrArg List.length e1
        rw [List.length_append, List.length_cons] at this
        omega
      obtain ⟨pre, body, f1, f2, f3⟩ := ih _ hl1 rfl e2
      refine ⟨pre, body ++ (.start e'.name e'.attrs :: body1 ++ [.stop e'.name]), by rw [e1, f1]; simp, f2, ?_⟩
      rw [openFrom_append, f3]
      show openFrom [e'] (body1 ++ [.stop e'.name]) = some []
      rw [openFrom_append, show openFrom [e'] body1 = some [e'] from openFrom_lift [e'] body1 [] [] e3]
      show (if e'.name = e'.name then some [] else none) = some []
      rw [if_pos rfl]
    | chars _ s => exact same rfl fun _ => rfl
    | other _ => exact same rfl fun _ => rfl

/-! ### Masks are registered by the end tag only -/

theorem emit_masks {c c' : Cursor F} (h : Emit c c') : c'.svg.svgMasks = c.svg.svgMasks := by cases h <;> rfl

theorem readToken_masks {t : Token} (ht : t ≠ .stop "mask".toList) (fuel : Nat) (c : Cursor F) :
    (readToken fuel t c).2.svg.svgMasks = c.svg.svgMasks := by
  cases t with
  | start name attrs =>
    rw [readToken, SM.bind_run]
    have hE := pushStyle_elem attrs c
    rcases hr : pushStyle attrs c with ⟨r, d⟩
    rw [hr] at hE
    dsimp only at hE
    rw [← hE.svgMasks]
    cases r with
    | ok u =>
      dsimp only
      rcases readStartElement_cases fuel name attrs d with ⟨-, -, -, -, h⟩ | ⟨-, ⟨-, h⟩ | ⟨df, hd, ⟨-, h⟩ | ⟨-, c', hE, h⟩ | ⟨-, -, h⟩⟩⟩
      · rw [h]
        have := congrArg (fun c : Cursor F => c.svg.svgMasks) (recordDef_comm (o := d.own) name attrs d)
        rw [ov_own] at this
        exact this
      · rw [h]; exact (handleError_elem _ d).svgMasks
      · rw [h]; exact (drawFuncs_elem hd attrs d).svgMasks
      · rw [h]; exact (emit_masks hE).trans (drawFuncs_elem hd attrs d).svgMasks
      · rw [h]; exact (drawFuncs_elem hd attrs d).svgMasks
    | err e => rfl
    | panic s => rfl
    | diverge => rfl
  | stop name =>
    have hn : name ≠ "mask".toList := fun h => ht (by rw [h])
    have := readEnd_comm hn c (o := c.own)
    rw [ov_own] at this
    have := congrArg (fun p : Res Unit × Cursor F => p.2.svg.svgMasks) this
    exact this
  | chars s =>
    have := readChars_comm s c (o := c.own)
    rw [ov_own] at this
    have := congrArg (fun p : Res Unit × Cursor F => p.2.svg.svgMasks) this
    exact this
  | other => rfl

theorem maskEnd_none {fuel : Nat} {c : Cursor F} (h : c.mask = none) : (readToken fuel (.stop "mask".toList) c).2.svg.svgMasks = c.svg.svgMasks := by
  rw [readToken]
  unfold readEndElement
  rw [SM.bind_run]
  unfold popStyle
  cases hs : c.styleStack with
  | nil => rfl
  | cons st rest =>
    dsimp only
    rw [SM.modify_run, if_neg (by decide), if_pos rfl]
    dsimp only
    rw [h]

end GoSvg
