import Verif.Lemmas.BareDoc
import Verif.Lemmas.StackExt
import Verif.Props.Places
import Verif.Model.F64

/-! C92: groups that say nothing. -/

set_option linter.unusedSectionVars false

namespace GoSvg

open Spec

section Generic

variable {F : Type} [GoFloat F] [GoEnv]

open SM (get modify throw lift panic diverge forEach)

/-- What `Parse` returns after the tokens have been read. -/
def finish (seen : Bool) (fin : StreamEnd) (x : Res Unit × Cursor F) : Outcome F :=
  match x with
  | (.ok (), c) =>
    match fin with
    | .error e => .done (some c.svg) (some (.reader e)) c.pc.log
    | .eof =>
      if seen then .done (some c.svg) none c.pc.log
      else .done none (some .noElement) c.pc.log
  | (.err e, c) => .done (some c.svg) (some e) c.pc.log
  | (.panic s, _) => .panic s
  | (.diverge, _) => .diverge

theorem parse_finish (fuel : Nat) (m : ErrorMode) (ts : List Token) (fin : StreamEnd) :
    parse (F := F) fuel m ts fin = finish (ts.any Token.isStart) fin (readTokens fuel ts (initCursor m)) := by
  unfold parse finish
  rcases readTokens fuel ts (initCursor (F := F) m) with ⟨r, c⟩
  cases r <;> cases fin <;> rfl

/-- If an element is open, a start tag has been read. -/
theorem open_any : ∀ {ts : List Token} {ch ch' : List Elem}, openFrom ch ts = some ch' → ch'.length ≤ ch.length ∨ ts.any Token.isStart = true
  | [], ch, ch', h => by cases h; exact .inl (Nat.le_refl _)
  | .start n a :: ts, _, _, _ => .inr rfl
  | .stop n :: ts, ch, ch', h => by
    cases ch with
    | nil => cases h
    | cons e ch =>
      rw [openFrom] at h
      split at h
      · rcases open_any h with h | h
        · exact .inl (Nat.le_succ_of_le h)
        · exact .inr (by rw [List.any_cons, h, Bool.or_true])
      · cases h
  | .chars s :: ts, ch, ch', h => by
    rcases open_any (ts := ts) (ch := ch) h with h | h
    · exact .inl h
    · exact .inr (by rw [List.any_cons, h, Bool.or_true])
  | .other :: ts, ch, ch', h => by
    rcases open_any (ts := ts) (ch := ch) h with h | h
    · exact .inl h
    · exact .inr (by rw [List.any_cons, h, Bool.or_true])

theorem tidyRest_prefix {B : Site → Prop} {ch ch1 : List Elem} {a b : List Token} {c : Cursor F} (h : TidyRest B ch (a ++ b) c)
    (ho : openFrom ch a = some ch1) : TidyRest B ch a c :=
  ⟨h.tidy, h.inv, ((every_append a b ho).1 h.places).1,
    h.defs.imp (fun h x hm => h x (List.mem_append_left _ hm)) fun h => ⟨((every_append a b ho).1 h.1).1, h.2⟩,
    fun t ht => h.colors t (List.mem_append_left _ ht)⟩

/-- With more styles below, the state while the content of a group is read. -/
theorem short_walk {fuel : Nat} {ch0 : List Elem} {R : List (PathStyle F)} (hR : R.length = ch0.length) {ts : List Token} {c : Cursor F}
    (hj : TidyRest (· = .color) ch0 ts (c.ext R)) (hts : openFrom [] ts = some []) : (readTokens fuel ts c).1.Within (· = .color) True := by
  have hne : ∀ ch ts (d : Cursor F), TidyRest (F := F) (· = .color) (ch ++ ch0) ts (d.ext R) → d.styleStack ≠ [] := by
    intro ch ts d hj h
    have := hj.tidy.stack
    rw [show (d.ext R).styleStack = d.styleStack ++ R from rfl, h, List.nil_append, hR, List.length_append] at this
    omega
  have hinv : ∀ d : Cursor F, TokInv (F := F) (· = .color) (d.ext R) → TokInv (· = .color) d := fun d h => ⟨⟨h.attrs, h.grad⟩, h.current, ⟨h.text.title, h.text.desc⟩⟩
  refine (walk_all (B := (· = .color)) (J := fun ch ts (d : Cursor F) => TidyRest (· = .color) (ch ++ ch0) ts (d.ext R)) (fuel := fuel)
    (fun ch ts d hj => ⟨hinv d hj.inv, hne ch ts d hj⟩)
    (fun ch t ts d hj => ⟨hj.useFine, hj.colors _ List.mem_cons_self⟩)
    (fun ch t ts d ch1 d1 u hj hst hr => ?_) ts [] [] c hj hts).1
  refine tidyRest_step (fuel := fuel) hj (step_lift hst ch0) (u := u) ?_
  have := readToken_above (R := R) fuel t d (by rw [hr]; exact fun h => nomatch h)
  rw [hr] at this
  exact this

/-- C92, partial, any tidy document in any mode: a group outside `defs` without attributes that have to do with the style might as
well not be there; the outcome is the same without its two tags. Missing: groups in `defs`, and documents that are not tidy. -/
theorem C92_plain_group_partial {fuel : Nat} {m : ErrorMode} {pre body post : List Token} {attrs : List Attr} {fin : StreamEnd}
    (ht : Tidy (pre ++ .start "g".toList attrs :: (body ++ .stop "g".toList :: post))) {ch : List Elem} (hch : openFrom [] pre = some ch)
    (hne : ch ≠ []) (hd : inside "defs" ch = false) (hb : openFrom [] body = some []) (ha : ∀ a ∈ attrs, Styling a = false) :
    parse (F := F) fuel m (pre ++ .start "g".toList attrs :: (body ++ .stop "g".toList :: post)) fin = parse fuel m (pre ++ (body ++ post)) fin := by
  have hany : ∀ ts, (pre ++ ts).any Token.isStart = true := by
    intro ts
    rcases open_any hch with h | h
    · exact absurd (List.length_eq_zero_iff.1 (Nat.le_zero.1 h)) hne
    · rw [List.any_append, h, Bool.true_or]
  rw [parse_finish, parse_finish, hany, hany, readTokens_append, readTokens_append, SM.bind_run, SM.bind_run]
  rcases hr : readTokens fuel pre (initCursor (F := F) m) with ⟨r, c⟩
  cases r with
  | err e => rfl
  | panic e => rfl
  | diverge => rfl
  | ok u =>
    dsimp only
    obtain ⟨ch1, hch1, hrest⟩ := tidy_split (F := F) ht
    rw [hch] at hch1
    cases hch1
    have hj := hrest (· = .color) fuel m c (tokensOK_color _) hr
    have hp : c.pc.path = [] := by
      have := readTokens_clean fuel pre (initCursor (F := F) m) rfl (by rw [hr]; trivial)
      rwa [hr] at this
    have hdc : c.inDefs = false := hj.tidy.flags.inDefs.trans hd
    obtain ⟨top, rest, hs⟩ : ∃ top rest, c.styleStack = top :: rest := List.exists_cons_of_ne_nil hj.tidy.ne
    -- the start tag
    have hstart : readToken fuel (.start "g".toList attrs) c = (.ok (), { c with styleStack := top :: c.styleStack }) := by
      rw [readToken, SM.bind_run, pushStyle_plain ha hs]
      dsimp only
      unfold readStartElement
      dsimp only
      rw [if_neg (by rintro ⟨h, -⟩; rw [hdc] at h; cases h)]
      have : drawFuncs fuel (useF fuel) "g".toList = some fun _ => (pure () : CM F Unit) := rfl
      rw [this]
      dsimp only
      rw [SM.pure_run]
      dsimp only
      have he : ∀ d : Cursor F, d.pc.path = [] → emitPath d = (.ok (), d) := by intro d h; unfold emitPath; rw [h]
      rw [he { c with styleStack := top :: c.styleStack } hp]
    rw [readTokens_cons, SM.bind_run, hstart]
    dsimp only
    have hj1 : TidyRest (· = .color) (⟨"g".toList, attrs⟩ :: ch) (body ++ .stop "g".toList :: post) { c with styleStack := top :: c.styleStack } :=
      tidyRest_step hj (.start ..) hstart
    have hbody : openFrom (⟨"g".toList, attrs⟩ :: ch) body = some (⟨"g".toList, attrs⟩ :: ch) := openFrom_lift _ body [] [] hb
    have hj2 := tidyRest_prefix hj1 hbody
    -- the content, with the style on top only
    obtain ⟨s, hs1⟩ : ∃ s : Cursor F, s = { c with styleStack := [top] } := ⟨_, rfl⟩
    have e1 : ({ c with styleStack := top :: c.styleStack } : Cursor F) = s.ext c.styleStack := by rw [hs1]; rfl
    have e2 : c = s.ext rest := by
      rw [hs1]
      show c = { c with styleStack := top :: rest }
      rw [← hs]
    have hR : c.styleStack.length = (⟨"g".toList, attrs⟩ :: ch : List Elem).length := by rw [hj.tidy.stack]; rfl
    have hw := short_walk (fuel := fuel) hR (c := s) (by rw [← e1]; exact hj2) hb
    have hn : (readTokens fuel body s).1 ≠ .panic .styleStack := by
      intro h; rw [h] at hw; exact absurd hw (by show ¬ (Site.styleStack = Site.color); decide)
    have r1 := readTokens_above (R := c.styleStack) fuel body s hn
    have r2 := readTokens_above (R := rest) fuel body s hn
    rw [← e1] at r1
    rw [← e2] at r2
    rw [readTokens_append, readTokens_append, SM.bind_run, SM.bind_run, r1, r2]
    have hwalk := tidy_walk (fuel := fuel) body _ _ _ hj2 hbody
    have hres := restored (F := F) (J := TidyRest (· = .color)) (fuel := fuel) (fun ch t ts c hj => ⟨hj.inv, hj.useFine⟩)
      (fun ch t ts c ch1 c1 u hj hst hr => tidyRest_step hj hst hr) (⟨"g".toList, attrs⟩ :: ch) (top :: c.styleStack) body [] [] []
      { c with styleStack := top :: c.styleStack } ((readTokens fuel body s).2.ext c.styleStack) hj2 hb rfl rfl
    rw [r1] at hwalk hres
    generalize readTokens fuel body s = x at hwalk hres ⊢
    obtain ⟨r, d⟩ := x
    cases r with
    | err e => rfl
    | panic e => rfl
    | diverge => rfl
    | ok u =>
      dsimp only at hwalk hres ⊢
      obtain ⟨up, h1, h2⟩ := hres rfl
      have hd1 : d.styleStack = [top] := by
        cases up with
        | cons _ _ => cases h2
        | nil =>
          have : d.styleStack ++ c.styleStack = [top] ++ c.styleStack := h1
          exact List.append_cancel_right this
      have hdd : d.inDefs = false := by
        have := (hwalk.2 rfl).tidy.flags.inDefs
        rw [inside_tag_ne "defs" (by decide)] at this
        exact this.trans hd
      have hstop : readToken fuel (.stop "g".toList) (d.ext c.styleStack) = (.ok (), d.ext rest) := by
        rw [readToken]
        unfold readEndElement
        rw [SM.bind_run]
        unfold popStyle
        rw [show (d.ext c.styleStack).styleStack = top :: c.styleStack by show d.styleStack ++ _ = _; rw [hd1]; rfl]
        dsimp only
        rw [SM.modify_run, if_pos rfl, show (d.ext c.styleStack).inDefs = d.inDefs from rfl, hdd]
        rw [if_neg (fun h => nomatch h)]
        unfold Cursor.ext
        rw [hd1, hs, hdd]
        rfl
      rw [readTokens_cons, SM.bind_run, hstop]

end Generic

section Example

attribute [local instance] asciiEnv
attribute [local instance] dummyLibm

/-- `<svg viewBox="0 0 9 9">`, `<g id="a" class="b">`, a filled rectangle with a title after it, `</g>` and another rectangle. -/
def groupedDoc : List Token × List Token × List Token :=
  ([.start "svg".toList [⟨"viewBox".toList, "0 0 9 9".toList⟩]],
   [.start "rect".toList [⟨"width".toList, "2".toList⟩, ⟨"height".toList, "3".toList⟩, ⟨"fill".toList, "red".toList⟩], .stop "rect".toList,
    .start "title".toList [], .chars "t".toList, .stop "title".toList],
   [.start "rect".toList [⟨"width".toList, "1".toList⟩, ⟨"height".toList, "1".toList⟩], .stop "rect".toList, .stop "svg".toList])

/-- The attributes of the group. -/
def groupedAttrs : List Attr := [⟨"id".toList, "a".toList⟩, ⟨"class".toList, "b".toList⟩]

set_option maxRecDepth 100000 in
/-- The hypotheses hold of it, and two paths are drawn. -/
theorem grouped_example :
    Tidy (groupedDoc.1 ++ .start "g".toList groupedAttrs :: (groupedDoc.2.1 ++ .stop "g".toList :: groupedDoc.2.2)) ∧
    (∃ ch, openFrom [] groupedDoc.1 = some ch ∧ ch ≠ [] ∧ inside "defs" ch = false) ∧ openFrom [] groupedDoc.2.1 = some [] ∧
    (∀ a ∈ groupedAttrs, Styling a = false) ∧
    (match parse (F := F64) 9 .strict (groupedDoc.1 ++ (groupedDoc.2.1 ++ groupedDoc.2.2)) .eof with
      | .done (some s) none [] => decide (s.svgPaths.length = 2)
      | _ => false) = true := by
  refine ⟨⟨by decide +kernel, by decide +kernel, .inr (by decide +kernel)⟩, ⟨_, rfl, by decide, by decide +kernel⟩, by decide +kernel, by decide +kernel,
    by decide +kernel⟩

set_option maxRecDepth 100000 in
/-- The restriction on the attributes is needed: a group with a `transform` is seen. -/
theorem grouped_styled_false :
    parse (F := F64) 9 .strict (groupedDoc.1 ++ .start "g".toList [⟨"transform".toList, "scale(2)".toList⟩] :: (groupedDoc.2.1 ++ .stop "g".toList :: groupedDoc.2.2)) .eof ≠
    parse (F := F64) 9 .strict (groupedDoc.1 ++ (groupedDoc.2.1 ++ groupedDoc.2.2)) .eof := by
  decide +kernel

end Example

end GoSvg
