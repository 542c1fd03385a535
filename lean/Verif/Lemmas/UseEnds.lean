import Verif.Lemmas.UseTable
import Verif.Props.Nesting

/-! `use` comes to an end if the definitions are ranked, and does not if they form a cycle. -/

set_option linter.unusedSectionVars false

namespace GoSvg

open Spec

variable {F : Type} [GoFloat F] [GoEnv]

open SM (get modify throw lift panic diverge forEach)

/-- No restriction on panics. -/
abbrev AnyPanic : Site → Prop := fun _ => True

theorem attrOK_any (attrs : List Attr) : AttrOK AnyPanic attrs :=
  ⟨fun kv h1 h2 => within_mono ((attrOK_color attrs).paint kv h1 h2) (fun _ _ => trivial) id,
    fun b h1 h2 => within_mono ((attrOK_color attrs).stop b h1 h2) (fun _ _ => trivial) id⟩

/-- Each definition refers to definitions of lower rank only. -/
def RankedDefs (rank : Str → Nat) (c : Cursor F) : Prop :=
  ∀ id ds, c.svg.defs.find id = some ds → ∀ d ∈ ds, d.tag = "use".toList → ∀ id', refOf d.attrs = some id' → rank id' < rank id

/-- A state from which ranked definitions can be used. -/
structure EndInv (rank : Str → Nat) (c : Cursor F) : Prop where
  grad : GradOK c
  ranked : RankedDefs rank c

theorem endInv_rel {rank : Str → Nat} {c d : Cursor F} (h : ElemR c d) (hg : KeepsGrad c d) (hc : EndInv rank c) : EndInv rank d :=
  ⟨hg hc.grad, by intro id ds; rw [h.defs]; exact hc.ranked id ds⟩

theorem safe_end {α : Type} {rank : Str → Nat} {m : CM F α} (h : ∀ c, EndInv rank c → (m c).1.Within AnyPanic False)
    (h1 : Keeps ElemR m) (h2 : Keeps KeepsGrad m) : Safe AnyPanic False (EndInv rank) m :=
  fun c hc => ⟨h c hc, endInv_rel (h1 c) (h2 c) hc⟩

theorem useLoop_ends {rank : Str → Nat} {draw : Str → Option (List Attr → CM F Unit)} :
    ∀ ds : List Definition, (∀ d ∈ ds, ∀ df, draw d.tag = some df → Safe AnyPanic False (EndInv rank) (df d.attrs)) →
      Safe AnyPanic False (EndInv rank) (useLoop draw ds)
  | [], _ => safe_pure _
  | d :: ds, ha => by
    have ih := useLoop_ends (rank := rank) ds fun d h => ha d (List.mem_cons_of_mem _ h)
    have hpop : Safe AnyPanic False (EndInv (F := F) rank) popStyle :=
      safe_end (fun c _ => by unfold popStyle; split <;> trivial) popStyle_elem popStyle_keepsGrad
    rw [useLoop]
    refine safe_ite (safe_bind hpop fun _ => ih) ?_
    refine safe_bind (safe_end (fun c _ => pushStyle_within d.attrs c (.inr trivial) (attrOK_any d.attrs).paint) (pushStyle_elem _)
      (pushStyle_keepsGrad _)) fun _ => ?_
    cases hdr : draw d.tag with
    | none => exact safe_end (fun c _ => tame_within (handleError_tame _ c)) (handleError_elem _) (handleError_keepsGrad _)
    | some df =>
      refine safe_bind (ha d List.mem_cons_self df hdr) fun _ => ?_
      exact safe_ite (safe_bind hpop fun _ => ih) ih

/-- With `n` above the rank of what the element refers to, a fuel of `n + 1` suffices. -/
theorem useF_ends (h : AnglesClose F) (rank : Str → Nat) : ∀ (n fuel : Nat), n + 1 ≤ fuel → ∀ attrs : List Attr,
    (∀ id, refOf attrs = some id → rank id < n) → Safe AnyPanic False (EndInv rank) (useF fuel attrs : CM F Unit) := by
  intro n
  induction n with
  | zero =>
    intro fuel hf attrs hr c hc
    obtain ⟨k, rfl⟩ : ∃ k, fuel = k + 1 := ⟨fuel - 1, by omega⟩
    rcases useF_cases k attrs c with ⟨e, -, hu⟩ | ⟨v, -, hu⟩
    · rw [hu]; exact ⟨trivial, hc⟩
    · rw [hu]
      unfold withOffset
      rcases useBody_cases (drawFuncs k (useF k)) attrs { c with pc := { c.pc with curX := v.x, curY := v.y } } with
        ⟨-, -, hb⟩ | ⟨-, -, hb⟩ | ⟨id, hid, -, hb⟩ | ⟨id, ds, hid, -, hb⟩
      · rw [hb]; exact ⟨trivial, hc.grad, hc.ranked⟩
      · rw [hb]; exact ⟨trivial, hc.grad, hc.ranked⟩
      · exact absurd (hr id hid) (by omega)
      · exact absurd (hr id hid) (by omega)
  | succ n ih =>
    intro fuel hf attrs hr c hc
    obtain ⟨k, rfl⟩ : ∃ k, fuel = k + 1 := ⟨fuel - 1, by omega⟩
    rcases useF_cases k attrs c with ⟨e, -, hu⟩ | ⟨v, -, hu⟩
    · rw [hu]; exact ⟨trivial, hc⟩
    · rw [hu]
      unfold withOffset
      rcases useBody_cases (drawFuncs k (useF k)) attrs { c with pc := { c.pc with curX := v.x, curY := v.y } } with
        ⟨-, -, hb⟩ | ⟨-, -, hb⟩ | ⟨id, -, -, hb⟩ | ⟨id, ds, hid, hfd, hb⟩
      · rw [hb]; exact ⟨trivial, hc.grad, hc.ranked⟩
      · rw [hb]; exact ⟨trivial, hc.grad, hc.ranked⟩
      · rw [hb]; exact ⟨trivial, hc.grad, hc.ranked⟩
      · rw [hb]
        have hl := useLoop_ends (rank := rank) (draw := drawFuncs (F := F) k (useF k)) ds (fun d hd df hdr => by
          by_cases ht : d.tag = "use".toList
          · rw [ht, drawFuncs_use] at hdr
            cases hdr
            refine ih k (by omega) d.attrs fun id' hid' => ?_
            have h1 := hc.ranked id ds hfd d hd ht id' hid'
            have h2 := hr id hid
            omega
          · exact safe_end (fun c hc => drawFuncs_within hdr ht (.inr (rectsEnd_of h (by omega))) d.attrs (attrOK_any _).stop c
              (.inr trivial) hc.grad) (keeps_mono (drawFuncs_plain hdr ht d.attrs) fun _ _ h => h.toElemR)
              (drawFuncs_keepsGrad hdr ht d.attrs)) { c with pc := { c.pc with curX := v.x, curY := v.y } } ⟨hc.grad, hc.ranked⟩
        rcases hx : useLoop (drawFuncs k (useF k)) ds { c with pc := { c.pc with curX := v.x, curY := v.y } } with ⟨r, d⟩
        rw [hx] at hl
        exact ⟨hl.1, hl.2.grad, hl.2.ranked⟩

/-! ### Elements that declare nothing -/

theorem readStyleAttr_unstyled {k : Str} (hk : ∀ p ∈ styleProperties, k ≠ p.toList) (st : PathStyle F) (v : Str) (c : Cursor F) :
    readStyleAttr st k v c = (.ok st, c) := by
  have hn : ∀ p ∈ styleProperties, ¬ k = p.toList := hk
  rw [readStyleAttr_eff, styleEff]
  rw [if_neg (hn "fill" (by decide)), if_neg (hn "fill-rule" (by decide)), if_neg (hn "stroke" (by decide)),
    if_neg (hn "stroke-linegap" (by decide)), if_neg (hn "stroke-leadlinecap" (by decide)), if_neg (hn "stroke-linecap" (by decide)),
    if_neg (hn "stroke-linejoin" (by decide)), if_neg (hn "stroke-miterlimit" (by decide)), if_neg (hn "stroke-width" (by decide)),
    if_neg (hn "stroke-dashoffset" (by decide)), if_neg (hn "stroke-dasharray" (by decide)),
    if_neg (by
      rintro (h | h | h)
      · exact hn "opacity" (by decide) h
      · exact hn "stroke-opacity" (by decide) h
      · exact hn "fill-opacity" (by decide) h),
    if_neg (hn "transform" (by decide)), if_neg (hn "mask" (by decide))]
  rfl

theorem declLoop_unstyled : ∀ (ds : List (Str × Str)), (∀ d ∈ ds, ∀ p ∈ styleProperties, d.1 ≠ p.toList) → ∀ (st : PathStyle F) (c : Cursor F),
    declLoop st ds c = (.ok st, c)
  | [], _, _, _ => rfl
  | d :: ds, h, st, c => by
    rw [declLoop, SM.bind_run, readStyleAttr_unstyled (h d List.mem_cons_self)]
    exact declLoop_unstyled ds (fun d hd => h d (List.mem_cons_of_mem _ hd)) st c

theorem pushStyle_unstyled {attrs : List Attr} (h : Unstyled attrs) {c : Cursor F} {top : PathStyle F} {rest : List (PathStyle F)}
    (hs : c.styleStack = top :: rest) : pushStyle attrs c = (.ok (), { c with styleStack := top :: c.styleStack }) := by
  have hd := declLoop_unstyled (F := F) (decls attrs) (by rw [decls_eq_declared]; exact h)
  rcases pushStyle_frame attrs c with ⟨top', rest', st, c1, hs', hl, -, hp⟩ | ⟨hn, -⟩
  · rw [hs] at hs'
    cases hs'
    rw [hd] at hl
    cases hl
    exact hp
  · exfalso
    apply hn ()
    unfold pushStyle
    rw [SM.bind_run, SM.get_run]
    dsimp only
    rw [hs]
    dsimp only
    rw [SM.bind_run, pairsLoop_decls]
    have := hd top c
    unfold decls at this
    rw [this]
    rfl

theorem placed_ok {attrs : List Attr} (h : Placed F attrs) (vb : Bounds F) : ∀ v, ∃ w, Res.loop (useAttr vb) v attrs = .ok w := by
  refine loop_total attrs fun a ha v => ?_
  have hv : ∀ n : String, a.name = n.toList → a.value ∈ valuesNamed n attrs := by
    intro n hn
    exact List.mem_map.2 ⟨a, List.mem_filter.2 ⟨ha, by simpa using hn⟩, rfl⟩
  unfold useAttr
  by_cases h1 : a.name = "href".toList
  · rw [if_pos h1]; exact ⟨_, rfl⟩
  rw [if_neg h1]
  by_cases h2 : a.name = "x".toList
  · rw [if_pos h2]
    obtain ⟨x, hx⟩ := (h vb).1 _ (hv "x" h2)
    rw [hx]; exact ⟨_, rfl⟩
  rw [if_neg h2]
  by_cases h3 : a.name = "y".toList
  · rw [if_pos h3]
    obtain ⟨x, hx⟩ := (h vb).2 _ (hv "y" h3)
    rw [hx]; exact ⟨_, rfl⟩
  rw [if_neg h3]; exact ⟨_, rfl⟩

/-! ### Circles -/

/-- The state with the offset changed. -/
def atOffset (x y : F) (c : Cursor F) : Cursor F := { c with pc := { c.pc with curX := x, curY := y } }

theorem useF_circle {ids : List Str} : ∀ (fuel : Nat) (attrs : List Attr) (c : Cursor F), c.styleStack ≠ [] →
    (∀ id ∈ ids, ∃ d ds, c.svg.defs.find id = some (d :: ds) ∧ d.tag = "use".toList ∧ Unstyled d.attrs ∧ Placed F d.attrs ∧
      ∃ id' ∈ ids, refOf d.attrs = some id') → Placed F attrs → (∃ id ∈ ids, refOf attrs = some id) → (useF fuel attrs c).1 = .diverge
  | 0, _, _, _, _, _, _ => rfl
  | fuel + 1, attrs, c, hs, hd, hp, ⟨id, hid, hr⟩ => by
    rcases useF_cases fuel attrs c with ⟨e, he, -⟩ | ⟨v, -, hu⟩
    · obtain ⟨w, hw⟩ := placed_ok hp c.svg.viewBox ⟨[], num 0, num 0⟩
      rw [hw] at he; cases he
    · rw [hu]
      obtain ⟨d, ds, hf, ht, hus, hpl, hnext⟩ := hd id hid
      unfold withOffset
      have e1 : (atOffset v.x v.y c).styleStack = c.styleStack := rfl
      have e2 : (atOffset v.x v.y c).svg = c.svg := rfl
      show (match useBody (drawFuncs fuel (useF fuel)) (lastNamed "href" attrs) (atOffset v.x v.y c) with
        | (r, c) => (r, atOffset (num 0) (num 0) c)).1 = _
      generalize atOffset v.x v.y c = c1 at e1 e2
      rw [← e2] at hf hd
      rcases useBody_cases (drawFuncs fuel (useF fuel)) attrs c1 with
        ⟨-, h', -⟩ | ⟨-, h', -⟩ | ⟨id', h', hf', -⟩ | ⟨id', ds', h', hf', hb⟩
      · rw [h'] at hr; cases hr
      · rw [h'] at hr; cases hr
      · rw [h'] at hr; cases hr
        rw [hf'] at hf; cases hf
      · rw [h'] at hr; cases hr
        rw [hf'] at hf; cases hf
        rw [hb, useLoop, if_neg (by rw [ht]; decide), SM.bind_run]
        obtain ⟨top, rest, hst⟩ : ∃ top rest, c.styleStack = top :: rest := by
          cases h : c.styleStack with
          | nil => exact absurd h hs
          | cons t r => exact ⟨t, r, rfl⟩
        rw [pushStyle_unstyled hus (e1.trans hst)]
        dsimp only
        rw [ht, drawFuncs_use]
        dsimp only
        rw [SM.bind_run]
        have ih := useF_circle (ids := ids) fuel d.attrs { c1 with styleStack := top :: c1.styleStack } (by simp) hd hpl hnext
        generalize useF (F := F) fuel d.attrs _ = p at ih ⊢
        obtain ⟨r, c2⟩ := p
        dsimp only at ih
        subst ih
        rfl

/-! ### Documents -/

theorem lookup_mem {α β : Type} [BEq α] [LawfulBEq α] {k : α} {v : β} : ∀ {l : List (α × β)}, l.lookup k = some v → (k, v) ∈ l
  | (k', v') :: l, h => by
    rw [List.lookup_cons] at h
    by_cases hk : k = k'
    · subst hk; simp at h; subst h; exact List.mem_cons_self
    · have : (k == k') = false := by simpa using hk
      rw [this] at h
      exact List.mem_cons_of_mem _ (lookup_mem h)

theorem close_sub (s : Definitions) : ∀ x ∈ s.done, x ∈ s.close.done := by
  intro x hx
  unfold Definitions.close
  split
  · exact hx
  · exact List.mem_cons_of_mem _ hx

theorem next_sub (ch : List Elem) (s : Definitions) (t : Token) : ∀ x ∈ s.done, x ∈ (s.next ch t).done := by
  intro x hx
  unfold Definitions.next
  cases t with
  | start name attrs =>
    dsimp only
    split
    · split
      · exact hx
      · exact close_sub s x hx
    · exact hx
  | stop name =>
    dsimp only
    split
    · split <;> exact hx
    · split
      · exact close_sub s x hx
      · exact hx
  | chars s' => exact hx
  | other => exact hx

theorem definitionsFrom_sub : ∀ (ts : List Token) (ch : List Elem) (s : Definitions), ∀ x ∈ s.done, x ∈ (definitionsFrom ch s ts).done
  | [], _, _, _, hx => hx
  | t :: ts, ch, s, x, hx => definitionsFrom_sub ts _ _ x (next_sub ch s t x hx)

theorem readToken_endsUse (h : AnglesClose F) {fuel n : Nat} (hf : n + 1 ≤ fuel) {rank : Str → Nat} {t : Token}
    (hn : ∀ attrs id, t = .start "use".toList attrs → refOf attrs = some id → rank id < n) {c : Cursor F} (hc : TokInv AnyPanic c)
    (hr : RankedDefs rank c) : (readToken fuel t c).1.Within AnyPanic False := by
  by_cases hu : ∃ attrs, t = .start "use".toList attrs
  · obtain ⟨attrs, rfl⟩ := hu
    rw [readToken, SM.bind_run]
    have hw := pushStyle_within (B := AnyPanic) attrs c (.inr trivial) (attrOK_any attrs).paint
    have he := pushStyle_elem attrs c
    have hk := pushStyle_keepsGrad attrs c
    rcases hp : pushStyle attrs c with ⟨r, d⟩
    rw [hp] at hw he hk
    have hd : TokInv AnyPanic d := tokInv_rel he hk hc
    have hrd : RankedDefs rank d := by intro id ds; rw [he.defs]; exact hr id ds
    cases r with
    | err e => trivial
    | panic s => exact hw
    | diverge => exact hw
    | ok u =>
      dsimp only
      have hdf : ∀ df, drawFuncs fuel (useF fuel) "use".toList = some df → (df attrs d).1.Within AnyPanic False := fun df hdr => by
        rw [drawFuncs_use] at hdr
        cases hdr
        exact (useF_ends h rank n fuel hf attrs (fun id hid => hn attrs id rfl hid) d ⟨hd.grad, hrd⟩).1
      rcases readStartElement_cases fuel "use".toList attrs d with ⟨-, -, -, -, h⟩ | ⟨-, ⟨-, h⟩ | ⟨df, hdr, ⟨hn, h⟩ | ⟨-, c', hE, h⟩ | ⟨htm, hn, h⟩⟩⟩
      · rw [h]; trivial
      · rw [h]; exact tame_within (handleError_tame _ d)
      · rw [h]; exact hdf df hdr
      · rw [h]; exact hdf df hdr
      · rw [h]; trivial
  · exact readToken_ends (fun _ => trivial) (rectsEnd_of h (by omega)) (fun attrs e => hu ⟨attrs, e⟩) hc

theorem readTokens_endsUse (h : AnglesClose F) {fuel n : Nat} (hf : n + 1 ≤ fuel) {rank : Str → Nat} :
    ∀ (ts : List Token) (ch ch' : List Elem) (c : Cursor F) (s : Definitions), openFrom ch ts = some ch' →
      (∀ attrs id, Token.start "use".toList attrs ∈ ts → refOf attrs = some id → rank id < n) →
      (∀ id ds, (id, ds) ∈ (definitionsFrom ch s ts).done → ∀ d ∈ ds, d.tag = "use".toList → ∀ id', refOf d.attrs = some id' →
        rank id' < rank id) →
      TidyRest AnyPanic ch ts c → TableAt s c → (readTokens fuel ts c).1.Within AnyPanic False
  | [], _, _, _, _, _, _, _, _, _ => trivial
  | t :: ts, ch, ch', c, s, ho, hn, hr, hj, hs => by
    obtain ⟨ch1, hst, ho⟩ := openFrom_cons ho
    have hrc : RankedDefs rank c := by
      intro id ds hfd
      rw [hs.done] at hfd
      exact hr id ds (definitionsFrom_sub _ _ _ _ (lookup_mem hfd))
    have h1 := readToken_endsUse h hf (fun attrs id e hid => hn attrs id (e ▸ List.mem_cons_self) hid) hj.inv hrc
    rw [readTokens_cons, SM.bind_run]
    rcases htk : readToken fuel t c with ⟨r, c1⟩
    rw [htk] at h1
    cases r with
    | ok u =>
      refine readTokens_endsUse h hf ts ch1 ch' c1 (s.next ch t) ho (fun attrs id hm => hn attrs id (List.mem_cons_of_mem _ hm)) ?_
        (tidyRest_step hj hst htk) (step_table hj.tidy.flags hs htk)
      rw [← step_openNext hst]
      exact hr
    | err e => trivial
    | panic s => trivial
    | diverge => exact h1

/-- There is a bound on the ranks of what the elements of a document refer to. -/
theorem refs_bounded (rank : Str → Nat) : ∀ ts : List Token, ∃ n, ∀ attrs id, Token.start "use".toList attrs ∈ ts → refOf attrs = some id → rank id < n
  | [] => ⟨0, fun _ _ h => nomatch h⟩
  | t :: ts => by
    obtain ⟨n, hn⟩ := refs_bounded rank ts
    obtain ⟨k, hk⟩ : ∃ k, ∀ attrs id, Token.start "use".toList attrs = t → refOf attrs = some id → rank id < k := by
      cases t with
      | start name attrs =>
        refine ⟨rank ((refOf attrs).getD []) + 1, fun a id e hid => ?_⟩
        cases e
        rw [hid]
        exact Nat.lt_succ_self _
      | _ => exact ⟨0, fun _ _ e => nomatch e⟩
    refine ⟨max n k, fun attrs id hm hid => ?_⟩
    rcases List.mem_cons.1 hm with e | hm
    · have := hk attrs id e hid; omega
    · have := hn attrs id hm hid; omega

end GoSvg
