import Verif.Lemmas.Gradients
import Verif.Lemmas.Fuel
import Verif.Spec.Use

/-! The table of definitions is the one the text of the document describes; what `use` makes of its attributes. -/

set_option linter.unusedSectionVars false

namespace GoSvg

open Spec

variable {F : Type} [GoFloat F] [GoEnv]

open SM (get modify throw lift panic diverge forEach)

theorem lastNamed_fold (n : String) : ∀ (attrs : List Attr) (x : Str),
    attrs.foldl (fun id a => if a.name = n.toList then a.value else id) x = (valuesNamed n attrs).getLast?.getD x
  | [], _ => rfl
  | a :: as, x => by
    rw [List.foldl_cons, lastNamed_fold n as]
    unfold valuesNamed
    by_cases h : a.name = n.toList
    · rw [if_pos h, List.filter_cons_of_pos (by simpa using h), List.map_cons, List.getLast?_cons]; rfl
    · rw [if_neg h, List.filter_cons_of_neg (by simpa using h)]

theorem lastID_eq (attrs : List Attr) : lastID attrs = lastNamed "id" attrs := lastNamed_fold "id" attrs []

/-- The definitions known to the parser are those of the text. -/
structure TableAt (s : Definitions) (c : Cursor F) : Prop where
  done : ∀ id, c.svg.defs.find id = s.done.lookup id
  cur : c.currentDef = s.open_

theorem tableAt_init (m : ErrorMode) : TableAt {} (initCursor (F := F) m) := ⟨fun _ => rfl, rfl⟩

theorem tableAt_elem {s : Definitions} {c d : Cursor F} (h : ElemR c d) (hc : TableAt s c) : TableAt s d :=
  ⟨by rw [h.defs]; exact hc.done, h.currentDef.trans hc.cur⟩

theorem insert_lookup {m : GoMap (List Definition)} {l : List (Str × List Definition)} (h : ∀ id, m.find id = l.lookup id) (k : Str)
    (ds : List Definition) (id : Str) : (m.insert k ds).find id = ((k, ds) :: l).lookup id := by
  rw [List.lookup_cons]
  by_cases he : id = k
  · subst he; rw [find_insert_self]; simp
  · rw [find_insert_ne m he, h]
    have : (id == k) = false := by simpa using he
    rw [this]

theorem recordDef_table {s : Definitions} {name : Str} {attrs : List Attr} {c : Cursor F} (hc : TableAt s c) :
    TableAt ⟨(if lastNamed "id" attrs = [] then s else s.close).done,
      (if lastNamed "id" attrs = [] then s else s.close).open_ ++ [⟨lastNamed "id" attrs, name, attrs⟩]⟩ (recordDef name attrs c) := by
  unfold recordDef Definitions.close
  rw [lastID_eq]
  dsimp only
  rw [← hc.cur]
  cases hcd : c.currentDef with
  | nil =>
    dsimp only
    have : (if lastNamed "id" attrs = [] then s else s) = s := by split <;> rfl
    rw [this]
    refine ⟨hc.done, ?_⟩
    show _ = s.open_ ++ _
    rw [← hc.cur]
  | cons d0 tl =>
    dsimp only
    by_cases hid : lastNamed "id" attrs = []
    · rw [if_pos hid, if_neg (fun h => h hid)]
      refine ⟨hc.done, ?_⟩
      show _ = s.open_ ++ _
      rw [← hc.cur]
    · rw [if_neg hid, if_pos hid]
      refine ⟨fun id => insert_lookup hc.done _ _ id, rfl⟩

theorem emit_table {s : Definitions} {c c' : Cursor F} (h : Emit c c') (hc : TableAt s c) : TableAt s c' := by
  cases h <;> exact ⟨hc.done, hc.cur⟩

theorem start_table {fuel : Nat} {name : Str} {attrs : List Attr} {c c' : Cursor F} {u : Unit} {ch : List Elem} {s : Definitions}
    (hf : FlagsAt ch c) (hs : TableAt s c) (h : readToken fuel (.start name attrs) c = (.ok u, c')) :
    TableAt (s.next ch (.start name attrs)) c' := by
  rw [readToken, SM.bind_run] at h
  have hp := tableAt_elem (pushStyle_elem attrs c) hs
  have hF := flagR_at (pushStyle_flag attrs c) hf
  rcases hr : pushStyle attrs c with ⟨r, d⟩
  rw [hr] at hp hF h
  cases r with
  | err e => cases h
  | panic p => cases h
  | diverge => cases h
  | ok v =>
    dsimp only at hp hF h
    unfold Definitions.next
    dsimp only
    rcases readStartElement_cases fuel name attrs d with ⟨h1, h2, h3, h4, h'⟩ |
      ⟨hwhy, hrest⟩
    · rw [h'] at h; cases h
      rw [if_pos ⟨hF.inDefs ▸ h1, hF.inGrad ▸ h4, by rintro (h | h); exact h3 h; exact h2 h⟩]
      exact recordDef_table hp
    · rw [if_neg (by
        rintro ⟨k1, k2, k3⟩
        rcases hwhy with hw | hw | hw | hw
        · rw [hF.inDefs, k1] at hw; cases hw
        · exact k3 (.inr hw)
        · exact k3 (.inl hw)
        · rw [hF.inGrad, k2] at hw; cases hw)]
      rcases hrest with ⟨-, h'⟩ | ⟨df, hd, ⟨-, h'⟩ | ⟨-, c1, hE, h'⟩ | ⟨-, -, h'⟩⟩
      · have := tableAt_elem (handleError_elem (.cannotProcess name) d) hp
        rw [← h', h] at this; exact this
      · have := tableAt_elem (drawFuncs_elem hd attrs d) hp
        rw [← h', h] at this; exact this
      · have := emit_table hE (tableAt_elem (drawFuncs_elem hd attrs d) hp)
        rw [h'] at h
        obtain ⟨-, rfl⟩ := Prod.mk.inj h
        exact this
      · rw [h'] at h; cases h

theorem stop_table {fuel : Nat} {name : Str} {c c' : Cursor F} {u : Unit} {ch : List Elem} {s : Definitions}
    (hf : FlagsAt ch c) (hs : TableAt s c) (h : readToken fuel (.stop name) c = (.ok u, c')) :
    TableAt (s.next ch (.stop name)) c' := by
  rw [readToken] at h
  unfold readEndElement at h
  rw [SM.bind_run] at h
  unfold popStyle at h
  cases hst : c.styleStack with
  | nil => rw [hst] at h; cases h
  | cons st rest =>
    rw [hst] at h
    dsimp only at h
    rw [SM.modify_run] at h
    have h := (Prod.mk.inj h).2
    subst h
    dsimp only
    unfold Definitions.next
    dsimp only
    by_cases h1 : name = "g".toList
    · rw [if_pos h1, if_pos h1, hf.inDefs]
      by_cases hd : inside "defs" ch = true
      · rw [if_pos hd, if_pos hd]
        refine ⟨hs.done, ?_⟩
        show c.currentDef ++ _ = s.open_ ++ _
        rw [hs.cur]; rfl
      · rw [if_neg hd, if_neg hd]
        exact ⟨hs.done, hs.cur⟩
    rw [if_neg h1, if_neg h1]
    by_cases h2 : name = "mask".toList
    · rw [if_pos h2, if_neg (by rw [h2]; decide)]
      cases c.mask <;> exact ⟨hs.done, hs.cur⟩
    rw [if_neg h2]
    by_cases h3 : name = "title".toList
    · rw [if_pos h3, if_neg (by rw [h3]; decide)]
      exact ⟨hs.done, hs.cur⟩
    rw [if_neg h3]
    by_cases h4 : name = "desc".toList
    · rw [if_pos h4, if_neg (by rw [h4]; decide)]
      exact ⟨hs.done, hs.cur⟩
    rw [if_neg h4]
    by_cases h5 : name = "defs".toList
    · rw [if_pos h5, if_pos h5]
      unfold Definitions.close
      rw [← hs.cur]
      cases hcd : c.currentDef with
      | nil => exact ⟨hs.done, hcd.symm.trans hs.cur⟩
      | cons d0 tl => exact ⟨fun id => insert_lookup hs.done _ _ id, rfl⟩
    rw [if_neg h5, if_neg h5]
    split <;> exact ⟨hs.done, hs.cur⟩

theorem step_table {fuel : Nat} {t : Token} {c c' : Cursor F} {u : Unit} {ch : List Elem} {s : Definitions}
    (hf : FlagsAt ch c) (hs : TableAt s c) (h : readToken fuel t c = (.ok u, c')) : TableAt (s.next ch t) c' := by
  cases t with
  | start name attrs => exact start_table hf hs h
  | stop name => exact stop_table hf hs h
  | chars s' => rw [chars_fields h]; exact ⟨hs.done, hs.cur⟩
  | other => cases h; exact hs

theorem step_openNext {ch ch1 : List Elem} {t : Token} (h : Step ch t ch1) : openNext ch t = ch1 := by
  cases h <;> rfl

theorem tidy_table {B : Site → Prop} {fuel : Nat} : ∀ (ts : List Token) (ch ch' : List Elem) (c c' : Cursor F) (u : Unit) (s : Definitions)
    (rest : List Token), TidyRest B ch (ts ++ rest) c → TableAt s c → openFrom ch ts = some ch' → readTokens fuel ts c = (.ok u, c') →
      TableAt (definitionsFrom ch s ts) c' ∧ TidyRest B ch' rest c'
  | [], ch, ch', c, c', u, s, rest, hj, hs, ho, hr => by cases ho; cases hr; exact ⟨hs, hj⟩
  | t :: ts, ch, ch', c, c', u, s, rest, hj, hs, ho, hr => by
    obtain ⟨ch1, hst, ho⟩ := openFrom_cons ho
    rw [readTokens_cons, SM.bind_run] at hr
    rcases htk : readToken fuel t c with ⟨r, c1⟩
    rw [htk] at hr
    cases r with
    | ok v =>
      have h1 := step_table hj.tidy.flags hs htk
      have h2 := tidyRest_step hj hst htk
      have := tidy_table ts ch1 ch' c1 c' u _ rest h2 h1 ho hr
      rw [definitionsFrom, step_openNext hst]
      exact this
    | err e => cases hr
    | panic s => cases hr
    | diverge => cases hr

/-! ### The attributes of `use` -/

theorem useAttr_step {vb : Bounds F} {v w : UseVars F} {a : Attr} (h : useAttr vb v a = .ok w) :
    w.href = if a.name = "href".toList then a.value else v.href := by
  unfold useAttr at h
  by_cases h1 : a.name = "href".toList
  · rw [if_pos h1] at h ⊢
    cases h; rfl
  rw [if_neg h1] at h ⊢
  by_cases h2 : a.name = "x".toList
  · rw [if_pos h2] at h
    cases hr : resolveUnit vb a.value .width with
    | ok x => rw [hr] at h; cases h; rfl
    | err e => rw [hr] at h; cases h
    | panic e => rw [hr] at h; cases h
    | diverge => rw [hr] at h; cases h
  rw [if_neg h2] at h
  by_cases h3 : a.name = "y".toList
  · rw [if_pos h3] at h
    cases hr : resolveUnit vb a.value .height with
    | ok x => rw [hr] at h; cases h; rfl
    | err e => rw [hr] at h; cases h
    | panic e => rw [hr] at h; cases h
    | diverge => rw [hr] at h; cases h
  rw [if_neg h3] at h
  cases h; rfl

theorem useAttr_href (vb : Bounds F) : ∀ (attrs : List Attr) (v w : UseVars F), Res.loop (useAttr vb) v attrs = .ok w →
    w.href = (valuesNamed "href" attrs).getLast?.getD v.href
  | [], v, w, h => by cases h; rfl
  | a :: as, v, w, h => by
    rw [Res.loop] at h
    rw [← lastNamed_fold, List.foldl_cons, lastNamed_fold]
    cases hs : useAttr vb v a with
    | ok v1 =>
      rw [hs] at h
      rw [← useAttr_step hs]
      exact useAttr_href vb as v1 w h
    | err e => rw [hs] at h; cases h
    | panic e => rw [hs] at h; cases h
    | diverge => rw [hs] at h; cases h

theorem useBody_id (draw : Str → Option (List Attr → CM F Unit)) (id : Str) (c : Cursor F) :
    useBody draw ('#' :: id) c = match c.svg.defs.find id with
      | none => (.err .useNotFound, c)
      | some ds => useLoop draw ds c := by
  have e : useBody draw ('#' :: id) = (get >>= fun c => match c.svg.defs.find id with
      | none => throw .useNotFound
      | some ds => useLoop draw ds : CM F Unit) := by
    unfold useBody
    rw [if_neg (by simp)]
    rfl
  rw [e, SM.bind_run, SM.get_run]
  dsimp only
  cases c.svg.defs.find id <;> rfl

theorem useBody_other (draw : Str → Option (List Attr → CM F Unit)) {x : Char} (hx : x ≠ '#') (s : Str) (c : Cursor F) :
    useBody draw (x :: s) c = (.err .useNotID, c) := by
  have e : useBody draw (x :: s) = (SM.throw Err.useNotID : CM F Unit) := by
    unfold useBody
    rw [if_neg (by simp)]
    dsimp only
    split
    · rename_i h; cases h; exact absurd rfl hx
    · rfl
  rw [e]; rfl

/-- What `useBody` does, by what the element refers to. -/
theorem useBody_cases (draw : Str → Option (List Attr → CM F Unit)) (attrs : List Attr) (c : Cursor F) :
    (lastNamed "href" attrs = [] ∧ refOf attrs = none ∧ useBody draw (lastNamed "href" attrs) c = (.err .useNoHref, c)) ∨
    (lastNamed "href" attrs ≠ [] ∧ refOf attrs = none ∧ useBody draw (lastNamed "href" attrs) c = (.err .useNotID, c)) ∨
    (∃ id, refOf attrs = some id ∧ c.svg.defs.find id = none ∧ useBody draw (lastNamed "href" attrs) c = (.err .useNotFound, c)) ∨
    ∃ id ds, refOf attrs = some id ∧ c.svg.defs.find id = some ds ∧ useBody draw (lastNamed "href" attrs) c = useLoop draw ds c := by
  unfold refOf
  generalize lastNamed "href" attrs = href
  cases href with
  | nil => exact .inl ⟨rfl, rfl, rfl⟩
  | cons x s =>
    right
    by_cases hx : x = '#'
    · subst hx
      rw [useBody_id]
      right
      cases hf : c.svg.defs.find s with
      | none => exact .inl ⟨s, rfl, hf, rfl⟩
      | some ds => exact .inr ⟨s, ds, rfl, hf, rfl⟩
    · refine .inl ⟨by simp, ?_, useBody_other draw hx s c⟩
      split
      · rename_i h; cases h; exact absurd rfl hx
      · rfl

/-- `useF` with its attributes read. -/
theorem useF_cases (fuel : Nat) (attrs : List Attr) (c : Cursor F) :
    (∃ e, Res.loop (useAttr c.svg.viewBox) ⟨[], num 0, num 0⟩ attrs = .err e ∧ useF (fuel + 1) attrs c = (.err e, c)) ∨
    ∃ v, Res.loop (useAttr c.svg.viewBox) ⟨[], num 0, num 0⟩ attrs = .ok v ∧
      useF (fuel + 1) attrs c = withOffset v.x v.y (useBody (drawFuncs fuel (useF fuel)) (lastNamed "href" attrs)) c := by
  rw [useF, SM.bind_run, SM.get_run]
  dsimp only
  rw [SM.bind_run, SM.lift_run]
  have ht := loop_tame (useAttr_tame c.svg.viewBox) attrs ⟨[], num 0, num 0⟩
  cases hr : Res.loop (useAttr c.svg.viewBox) ⟨[], num 0, num 0⟩ attrs with
  | err e => exact .inl ⟨e, rfl, rfl⟩
  | panic s => rw [hr] at ht; exact absurd ht id
  | diverge => rw [hr] at ht; exact absurd ht id
  | ok v =>
    have := useAttr_href _ _ _ _ hr
    refine .inr ⟨v, rfl, ?_⟩
    dsimp only
    rw [this]; rfl

end GoSvg
