import Verif.Lemmas.Nest

/-! Walking through a well-nested document. -/

set_option linter.unusedSectionVars false

namespace GoSvg

open Spec

variable {F : Type} [GoFloat F] [GoEnv]

open SM (get modify throw lift panic diverge forEach)

/-! ### The open elements -/

theorem openFrom_append (ts us : List Token) : ∀ ch, openFrom ch (ts ++ us) = (openFrom ch ts).bind fun ch => openFrom ch us := by
  induction ts with
  | nil => intro ch; rfl
  | cons t ts ih =>
    intro ch
    cases t with
    | start n a => exact ih _
    | stop n =>
      cases ch with
      | nil => rfl
      | cons e ch =>
        simp only [List.cons_append, openFrom]
        split
        · exact ih _
        · rfl
    | chars s => exact ih _
    | other => exact ih _

theorem every_append {P : List Elem → Str → List Attr → Prop} (ts us : List Token) : ∀ {ch ch' : List Elem}, openFrom ch ts = some ch' →
    (Every P ch (ts ++ us) ↔ Every P ch ts ∧ Every P ch' us) := by
  induction ts with
  | nil => intro ch ch' h; cases h; exact ⟨fun h => ⟨trivial, h⟩, fun h => h.2⟩
  | cons t ts ih =>
    intro ch ch' h
    cases t with
    | start n a => exact (and_congr_right fun _ => ih h).trans and_assoc.symm
    | stop n =>
      cases ch with
      | nil => cases h
      | cons e ch =>
        simp only [openFrom] at h
        split at h
        · exact ih h
        · cases h
    | chars s => exact ih h
    | other => exact ih h

theorem openFrom_prefix {ts us ch ch'} (h : openFrom ch (ts ++ us) = some ch') : ∃ ch1, openFrom ch ts = some ch1 ∧ openFrom ch1 us = some ch' := by
  rw [openFrom_append] at h
  cases h1 : openFrom ch ts with
  | none => rw [h1] at h; cases h
  | some ch1 => rw [h1] at h; exact ⟨ch1, rfl, h⟩

/-! ### One step -/

/-- The open elements after one more token. -/
inductive Step : List Elem → Token → List Elem → Prop
  | start (ch name attrs) : Step ch (.start name attrs) (⟨name, attrs⟩ :: ch)
  | stop (e ch) : Step (e :: ch) (.stop e.name) ch
  | chars (ch s) : Step ch (.chars s) ch
  | other (ch) : Step ch .other ch

theorem openFrom_cons {ch ch' : List Elem} {t : Token} {ts : List Token} (h : openFrom ch (t :: ts) = some ch') :
    ∃ ch1, Step ch t ch1 ∧ openFrom ch1 ts = some ch' := by
  cases t with
  | start n a => exact ⟨_, .start ch n a, h⟩
  | stop n =>
    cases ch with
    | nil => cases h
    | cons e ch =>
      simp only [openFrom] at h
      split at h
      · rename_i he; subst he; exact ⟨_, .stop e ch, h⟩
      · cases h
  | chars s => exact ⟨_, .chars ch s, h⟩
  | other => exact ⟨_, .other ch, h⟩

theorem chars_fields {fuel : Nat} {s : Str} {c c' : Cursor F} {u : Unit} (h : readToken fuel (.chars s) c = (.ok u, c')) :
    c' = { c with svg := { c.svg with titles := c'.svg.titles, descriptions := c'.svg.descriptions } } := by
  have e := (readChars_keeps s c).eq
  rw [readToken] at h
  rw [h] at e
  exact e

/-- The state after a token, for what the token adds to or takes from the style stack. -/
theorem step_stack {fuel : Nat} {t : Token} {c c' : Cursor F} {u : Unit} {ch ch' : List Elem} (hc : Inv c) (hu : UseFine t c)
    (hs : c.styleStack.length = ch.length + 1) (hst : Step ch t ch') (h : readToken fuel t c = (.ok u, c')) :
    c'.styleStack.length = ch'.length + 1 := by
  cases hst with
  | start name attrs =>
    obtain ⟨top, rest, st, c1, h1, -, h2, -⟩ := start_stack hc hu h
    rw [h1] at hs
    rw [h2]
    simpa using hs
  | stop e ch =>
    obtain ⟨-, hE⟩ := stop_stack h
    rw [hE.stack, List.length_tail, hs]; simp
  | chars _ => rw [chars_fields h]; exact hs
  | other => cases h; exact hs

theorem step_inv {fuel : Nat} {t : Token} {c c' : Cursor F} {u : Unit} (hc : Inv c) (hs : c.styleStack ≠ []) (hu : UseFine t c)
    (h : readToken fuel t c = (.ok u, c')) : Inv c' := by
  have := (readToken_safe fuel (tokOK_color t) hc (.inl ⟨hs, hu⟩)).2
  rw [h] at this
  exact this

/-- The state while a document is read: the elements of `ch` are open. -/
structure WalkAt (ch : List Elem) (c : Cursor F) : Prop where
  inv : Inv c
  stack : c.styleStack.length = ch.length + 1

theorem WalkAt.ne {ch : List Elem} {c : Cursor F} (h : WalkAt ch c) : c.styleStack ≠ [] := by
  intro h'; have := h.stack; rw [h'] at this; simp at this

theorem step_walk {fuel : Nat} {t : Token} {c c' : Cursor F} {u : Unit} {ch ch' : List Elem} (hw : WalkAt ch c) (hu : UseFine t c)
    (hst : Step ch t ch') (h : readToken fuel t c = (.ok u, c')) : WalkAt ch' c' :=
  ⟨step_inv hw.inv hw.ne hu h, step_stack hw.inv hu hw.stack hst h⟩

/-- Moreover the flags fit. -/
structure TidyAt (ch : List Elem) (c : Cursor F) : Prop extends WalkAt ch c where
  flags : FlagsAt ch c
  allowed : Allowed TidyTag ch

/-- Whether `t` is a start tag with `P`. -/
def TokP (P : List Elem → Str → List Attr → Prop) (ch : List Elem) : Token → Prop
  | .start name attrs => P ch name attrs
  | _ => True

theorem step_tidy {fuel : Nat} {t : Token} {c c' : Cursor F} {u : Unit} {ch ch' : List Elem} (hw : TidyAt ch c) (hu : UseFine t c)
    (hP : TokP TidyTag ch t) (hst : Step ch t ch') (h : readToken fuel t c = (.ok u, c')) : TidyAt ch' c' := by
  refine ⟨step_walk hw.toWalkAt hu hst h, ?_, ?_⟩
  · cases hst with
    | start name attrs => exact start_flags hw.inv hu hw.flags hP h
    | stop e ch => exact stop_flags hw.flags hw.allowed.1 h
    | chars s => rw [chars_fields h]; exact ⟨hw.flags.1, hw.flags.2, hw.flags.3, hw.flags.4, hw.flags.5, hw.flags.6⟩
    | other => cases h; exact hw.flags
  · cases hst with
    | start name attrs => exact ⟨hP, hw.allowed⟩
    | stop e ch => exact hw.allowed.2
    | chars s => exact hw.allowed
    | other => exact hw.allowed

theorem step_defs {fuel : Nat} {t : Token} {c c' : Cursor F} {u : Unit} {ch ch' : List Elem} (hw : TidyAt ch c) (hd : DefsAt ch c)
    (hP : TokP TidyTag ch t) (hP' : TokP DefsTag ch t) (hst : Step ch t ch') (h : readToken fuel t c = (.ok u, c')) : DefsAt ch' c' := by
  cases hst with
  | start name attrs => exact start_defs hw.flags hd hP hP' h
  | stop e ch => exact stop_defs hw.flags hd hw.allowed.1 h
  | chars s =>
    rw [chars_fields h]
    exact ⟨hd.1, hd.2, hd.3⟩
  | other => cases h; exact hd

/-! ### Whole documents -/

theorem inv_init (mode : ErrorMode) : Inv (initCursor (F := F) mode) where
  attrs := fun id ds h => nomatch h
  grad := fun h => nomatch h
  current := fun d h => nomatch h
  text := ⟨(fun h => nomatch h), (fun h => nomatch h)⟩

theorem walk_init (mode : ErrorMode) : WalkAt [] (initCursor (F := F) mode) := ⟨inv_init mode, rfl⟩

theorem tidy_init (mode : ErrorMode) : TidyAt [] (initCursor (F := F) mode) :=
  ⟨walk_init mode, ⟨rfl, rfl, rfl, rfl, rfl, rfl⟩, trivial⟩

theorem defs_init (mode : ErrorMode) : DefsAt [] (initCursor (F := F) mode) :=
  ⟨fun id ds h => (nomatch h), fun _ => rfl, fun h => (nomatch h)⟩

theorem every_cons {P : List Elem → Str → List Attr → Prop} {ch ch1 : List Elem} {t : Token} {ts : List Token} (hst : Step ch t ch1)
    (h : Every P ch (t :: ts)) : TokP P ch t ∧ Every P ch1 ts := by
  cases hst with
  | start => exact h
  | stop => exact ⟨trivial, h⟩
  | chars => exact ⟨trivial, h⟩
  | other => exact ⟨trivial, h⟩

theorem noUse_cons {t : Token} {ts : List Token} (h : NoUse (t :: ts)) : (∀ attrs, t ≠ .start "use".toList attrs) ∧ NoUse ts :=
  ⟨fun attrs e => h attrs (by rw [e]; exact List.mem_cons_self), fun attrs hm => h attrs (List.mem_cons_of_mem _ hm)⟩

theorem readTokens_cons (fuel : Nat) (t : Token) (ts : List Token) (c : Cursor F) :
    readTokens fuel (t :: ts) c = (readToken fuel t >>= fun _ => readTokens fuel ts) c := rfl

/-- A walk through a document, for any invariant that tells when `use` is fine. -/
theorem walk_all {B : Site → Prop} {J : List Elem → List Token → Cursor F → Prop} {fuel : Nat}
    (hinv : ∀ ch ts c, J ch ts c → TokInv B c ∧ c.styleStack ≠ [])
    (huse : ∀ ch t ts c, J ch (t :: ts) c → UseFine t c ∧ TokOK B t)
    (hstep : ∀ ch t ts c ch1 c1 u, J ch (t :: ts) c → Step ch t ch1 → readToken fuel t c = (.ok u, c1) → J ch1 ts c1) :
    ∀ (ts : List Token) (ch ch' : List Elem) (c : Cursor F), J ch ts c → openFrom ch ts = some ch' →
      (readTokens fuel ts c).1.Within B True ∧ ((readTokens fuel ts c).1 = .ok () → J ch' [] (readTokens fuel ts c).2)
  | [], ch, ch', c, hj, h => by cases h; exact ⟨trivial, fun _ => hj⟩
  | t :: ts, ch, ch', c, hj, h => by
    obtain ⟨ch1, hst, h⟩ := openFrom_cons h
    obtain ⟨hi, hne⟩ := hinv ch _ c hj
    obtain ⟨hu, hto⟩ := huse ch t ts c hj
    have hsafe := (readToken_safe fuel hto hi (.inl ⟨hne, hu⟩)).1
    rw [readTokens_cons, SM.bind_run]
    rcases hr : readToken fuel t c with ⟨r, c1⟩
    rw [hr] at hsafe
    cases r with
    | ok u => exact walk_all hinv huse hstep ts ch1 ch' c1 (hstep ch t ts c ch1 c1 u hj hst hr) h
    | err e => exact ⟨trivial, fun h => nomatch h⟩
    | panic s => exact ⟨hsafe, fun h => nomatch h⟩
    | diverge => exact ⟨trivial, fun h => nomatch h⟩

/-- The colours of the tokens. -/
def TokensOK (B : Site → Prop) (ts : List Token) : Prop := ∀ t ∈ ts, TokOK B t

theorem tokensOK_color (ts : List Token) : TokensOK (· = .color) ts := fun t _ => tokOK_color t

/-- The state in front of the rest `ts` of a document without `use`. -/
structure NoUseAt (B : Site → Prop) (ch : List Elem) (ts : List Token) (c : Cursor F) : Prop where
  walk : WalkAt ch c
  inv : TokInv B c
  noUse : NoUse ts
  colors : TokensOK B ts

theorem noUse_walk {B : Site → Prop} {fuel : Nat} (ts : List Token) (ch ch' : List Elem) (c : Cursor F) (hj : NoUseAt B ch ts c)
    (h : openFrom ch ts = some ch') : (readTokens fuel ts c).1.Within B True ∧
      ((readTokens fuel ts c).1 = .ok () → NoUseAt B ch' [] (readTokens fuel ts c).2) := by
  refine walk_all (J := NoUseAt B) (fun ch ts c hj => ⟨hj.inv, hj.walk.ne⟩)
    (fun ch t ts c hj => ⟨.inl (noUse_cons hj.noUse).1, hj.colors t List.mem_cons_self⟩)
    (fun ch t ts c ch1 c1 u hj hst hr => ?_) ts ch ch' c hj h
  have hu : UseFine t c := .inl (noUse_cons hj.noUse).1
  have hsafe := (readToken_safe fuel (hj.colors t List.mem_cons_self) hj.inv (.inl ⟨hj.walk.ne, hu⟩)).2
  rw [hr] at hsafe
  exact ⟨step_walk hj.walk hu hst hr, hsafe, (noUse_cons hj.noUse).2, fun t' h => hj.colors t' (List.mem_cons_of_mem _ h)⟩

/-- The state in front of the rest `ts` of a tidy document. -/
structure TidyRest (B : Site → Prop) (ch : List Elem) (ts : List Token) (c : Cursor F) : Prop where
  tidy : TidyAt ch c
  inv : TokInv B c
  places : Every TidyTag ch ts
  defs : NoUse ts ∨ (Every DefsTag ch ts ∧ DefsAt ch c)
  colors : TokensOK B ts

theorem TidyRest.useFine {B : Site → Prop} {ch : List Elem} {t : Token} {ts : List Token} {c : Cursor F}
    (h : TidyRest B ch (t :: ts) c) : UseFine t c := by
  rcases h.defs with h | ⟨-, h⟩
  · exact .inl (noUse_cons h).1
  · exact .inr h.defs

theorem tidyRest_step {B : Site → Prop} {fuel : Nat} {ch ch1 : List Elem} {t : Token} {ts : List Token} {c c1 : Cursor F} {u : Unit}
    (hj : TidyRest B ch (t :: ts) c) (hst : Step ch t ch1) (hr : readToken fuel t c = (.ok u, c1)) : TidyRest B ch1 ts c1 := by
  have hu := hj.useFine
  have hsafe := (readToken_safe fuel (hj.colors t List.mem_cons_self) hj.inv (.inl ⟨hj.tidy.ne, hu⟩)).2
  rw [hr] at hsafe
  obtain ⟨p1, p2⟩ := every_cons hst hj.places
  refine ⟨step_tidy hj.tidy hu p1 hst hr, hsafe, p2, ?_, fun t' h => hj.colors t' (List.mem_cons_of_mem _ h)⟩
  rcases hj.defs with h | ⟨h, h'⟩
  · exact .inl (noUse_cons h).2
  · obtain ⟨q1, q2⟩ := every_cons hst h
    exact .inr ⟨q2, step_defs hj.tidy h' p1 q1 hst hr⟩

theorem tidy_walk {B : Site → Prop} {fuel : Nat} (ts : List Token) (ch ch' : List Elem) (c : Cursor F) (hj : TidyRest B ch ts c)
    (h : openFrom ch ts = some ch') : (readTokens fuel ts c).1.Within B True ∧
      ((readTokens fuel ts c).1 = .ok () → TidyRest B ch' [] (readTokens fuel ts c).2) :=
  walk_all (J := TidyRest B) (fun _ _ _ hj => ⟨hj.inv, hj.tidy.ne⟩)
    (fun _ _ _ _ hj => ⟨hj.useFine, hj.colors _ List.mem_cons_self⟩)
    (fun _ _ _ _ _ _ _ hj hst hr => tidyRest_step hj hst hr) ts ch ch' c hj h

theorem tokInv_init (B : Site → Prop) (mode : ErrorMode) : TokInv B (initCursor (F := F) mode) where
  attrs := fun id ds h => nomatch h
  grad := fun h => nomatch h
  current := fun d h => nomatch h
  text := ⟨(fun h => nomatch h), (fun h => nomatch h)⟩

theorem noUse_start {B : Site → Prop} (mode : ErrorMode) {ts : List Token} (h : NoUse ts) (hc : TokensOK B ts) :
    NoUseAt B [] ts (initCursor (F := F) mode) := ⟨walk_init mode, tokInv_init B mode, h, hc⟩

theorem tidy_start {B : Site → Prop} (mode : ErrorMode) {ts : List Token} (h : Tidy ts) (hc : TokensOK B ts) :
    TidyRest B [] ts (initCursor (F := F) mode) :=
  ⟨tidy_init mode, tokInv_init B mode, h.places, h.defs.imp id fun h => ⟨h, defs_init mode⟩, hc⟩

/-- Any document at all. -/
theorem any_walk {B : Site → Prop} (hB : B .styleStack) (fuel : Nat) : ∀ (ts : List Token) (c : Cursor F), TokInv B c → TokensOK B ts →
    (readTokens fuel ts c).1.Within B True ∧ TokInv B (readTokens fuel ts c).2
  | [], _, hc, _ => ⟨trivial, hc⟩
  | t :: ts, c, hc, ht => by
    have h := readToken_safe fuel (ht t List.mem_cons_self) hc (.inr hB)
    rw [readTokens_cons, SM.bind_run]
    rcases hr : readToken fuel t c with ⟨r, c1⟩
    rw [hr] at h
    cases r with
    | ok u => exact any_walk hB fuel ts c1 h.2 fun t' h => ht t' (List.mem_cons_of_mem _ h)
    | err e => exact ⟨trivial, h.2⟩
    | panic s => exact h
    | diverge => exact ⟨trivial, h.2⟩

end GoSvg
