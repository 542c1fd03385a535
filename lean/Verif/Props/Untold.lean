import Verif.Lemmas.Deaf
import Verif.Spec.Untold
import Verif.Spec.Cascade
import Verif.Props.PlainGroup

/-! C94: titles, descriptions and text. -/

set_option linter.unusedSectionVars false

namespace GoSvg

open Spec

section Generic

variable {F : Type} [GoFloat F] [GoEnv]

open SM (get modify throw lift panic diverge forEach)

/-- The texts of a cursor. -/
def Cursor.words (c : Cursor F) : Words := ⟨c.inTitleText, c.inDescText, c.svg.titles, c.svg.descriptions⟩

theorem TextOK.good {c : Cursor F} (h : TextOK c) : c.words.Good := ⟨h.title, h.desc⟩

theorem apart_refl {c : Cursor F} (h : TextOK c) : TextApart c c := ⟨c, c.words, c.words, h.good, h.good, rfl, rfl⟩

theorem finish_untold (seen : Bool) (fin : StreamEnd) {x y : Res Unit × Cursor F} (h1 : x.1 = y.1) (h2 : TextApart x.2 y.2) :
    untold (finish seen fin x) = untold (finish seen fin y) := by
  obtain ⟨r, c⟩ := x
  obtain ⟨r', d⟩ := y
  dsimp only at h1 h2
  subst h1
  obtain ⟨s, k1, k2, -, -, rfl, rfl⟩ := h2
  cases r <;> cases fin <;> cases seen <;> rfl

/-- Text and comments change the texts only. -/
theorem readTokens_tags (fuel : Nat) : ∀ (ts : List Token) {c d : Cursor F}, TextApart c d →
    (readTokens fuel ts c).1 = (readTokens fuel (onlyTags ts) d).1 ∧ TextApart (readTokens fuel ts c).2 (readTokens fuel (onlyTags ts) d).2
  | [], _, _, h => ⟨rfl, h⟩
  | .chars x :: ts, c, d, h => by
    obtain ⟨s, k1, k2, g1, g2, rfl, rfl⟩ := h
    obtain ⟨l1, i1, e1⟩ := readChars_say x s g1
    rw [readTokens_cons, SM.bind_run, readToken, e1]
    exact readTokens_tags fuel ts ⟨s, l1, k2, i1, g2, rfl, rfl⟩
  | .other :: ts, c, d, h => readTokens_tags fuel ts h
  | .start n a :: ts, c, d, h => by
    obtain ⟨h1, h2⟩ := readToken_apart fuel (.start n a) h
    rw [show onlyTags (.start n a :: ts) = .start n a :: onlyTags ts from rfl, readTokens_cons, readTokens_cons, SM.bind_run, SM.bind_run]
    generalize readToken fuel (.start n a) c = x at h1 h2 ⊢
    generalize readToken fuel (.start n a) d = y at h1 h2 ⊢
    obtain ⟨r, c1⟩ := x
    obtain ⟨r', d1⟩ := y
    dsimp only at h1 h2 ⊢
    subst h1
    cases r with
    | ok u => exact readTokens_tags fuel ts h2
    | err e => exact ⟨rfl, h2⟩
    | panic e => exact ⟨rfl, h2⟩
    | diverge => exact ⟨rfl, h2⟩
  | .stop n :: ts, c, d, h => by
    obtain ⟨h1, h2⟩ := readToken_apart fuel (.stop n) h
    rw [show onlyTags (.stop n :: ts) = .stop n :: onlyTags ts from rfl, readTokens_cons, readTokens_cons, SM.bind_run, SM.bind_run]
    generalize readToken fuel (.stop n) c = x at h1 h2 ⊢
    generalize readToken fuel (.stop n) d = y at h1 h2 ⊢
    obtain ⟨r, c1⟩ := x
    obtain ⟨r', d1⟩ := y
    dsimp only at h1 h2 ⊢
    subst h1
    cases r with
    | ok u => exact readTokens_tags fuel ts h2
    | err e => exact ⟨rfl, h2⟩
    | panic e => exact ⟨rfl, h2⟩
    | diverge => exact ⟨rfl, h2⟩

theorem any_tags (ts : List Token) : (onlyTags ts).any Token.isStart = ts.any Token.isStart := by
  unfold onlyTags
  rw [List.any_filter]
  congr 1
  funext t
  cases t <;> rfl

theorem init_text (m : ErrorMode) : TextOK (initCursor (F := F) m) := ⟨fun h => (nomatch h), fun h => (nomatch h)⟩

theorem parse_tags (fuel : Nat) (m : ErrorMode) (ts : List Token) (fin : StreamEnd) :
    untold (parse (F := F) fuel m ts fin) = untold (parse fuel m (onlyTags ts) fin) := by
  obtain ⟨h1, h2⟩ := readTokens_tags fuel ts (apart_refl (init_text (F := F) m))
  rw [parse_finish, parse_finish, any_tags]
  exact finish_untold _ _ h1 h2

/-- C94, any document, well-formed or not, in any mode and however it ends: documents with the same tags have the same result but for the texts, the
same error and the same warnings, whatever text and comments stand between the tags. -/
theorem C94_text {fuel : Nat} {m : ErrorMode} {ts us : List Token} {fin : StreamEnd} (h : onlyTags ts = onlyTags us) :
    untold (parse (F := F) fuel m ts fin) = untold (parse fuel m us fin) := by
  rw [parse_tags, h, ← parse_tags]

/-- C94, partial, any tidy document in any mode: without a title or a description outside `defs` the result is the same but for the texts, if its attributes
have nothing to do with the style. Missing: those in `defs`, for which it is false (`C94_defs_false`). -/
theorem C94_title_partial {fuel : Nat} {m : ErrorMode} {pre body post : List Token} {n : Str} {attrs : List Attr} {fin : StreamEnd}
    (hn : n = "title".toList ∨ n = "desc".toList) (ht : Tidy (pre ++ post)) {ch : List Elem} (hch : openFrom [] pre = some ch)
    (hne : ch ≠ []) (hd : inside "defs" ch = false) (hb : NoTags body) (ha : ∀ a ∈ attrs, Styling a = false) :
    untold (parse (F := F) fuel m (pre ++ .start n attrs :: (body ++ .stop n :: post)) fin) = untold (parse fuel m (pre ++ post) fin) := by
  have hany : ∀ ts, (pre ++ ts).any Token.isStart = true := by
    intro ts
    rcases open_any hch with h | h
    · exact absurd (List.length_eq_zero_iff.1 (Nat.le_zero.1 h)) hne
    · rw [List.any_append, h, Bool.true_or]
  have hbody : onlyTags (pre ++ .start n attrs :: (body ++ .stop n :: post)) = onlyTags (pre ++ .start n attrs :: .stop n :: post) := by
    have : onlyTags body = [] := by
      refine List.filter_eq_nil_iff.2 fun t h => ?_
      have := hb t h
      cases t with
      | start n a => exact absurd rfl (this.1 n a)
      | stop n => exact absurd rfl (this.2 n)
      | chars s => exact fun h => nomatch h
      | other => exact fun h => nomatch h
    unfold onlyTags at this ⊢
    simp [List.filter_append, this, List.filter_cons]
  rw [C94_text hbody, parse_finish, parse_finish, hany, hany, readTokens_append, readTokens_append, SM.bind_run, SM.bind_run]
  rcases hr : readTokens fuel pre (initCursor (F := F) m) with ⟨r, c⟩
  cases r with
  | err e => rfl
  | panic e => rfl
  | diverge => rfl
  | ok u =>
    dsimp only
    obtain ⟨ch1, hch1, hrest⟩ := tidy_split (F := F) ht
    rw [hch] at hch1
    cases hch1
    have hj := hrest (· = .color) fuel m c (tokensOK_color _) hr
    have hp : c.pc.path = [] := by
      have := readTokens_clean fuel pre (initCursor (F := F) m) rfl (by rw [hr]; trivial)
      rwa [hr] at this
    have hdc : c.inDefs = false := hj.tidy.flags.inDefs.trans hd
    obtain ⟨top, rest, hs⟩ : ∃ top rest, c.styleStack = top :: rest := List.exists_cons_of_ne_nil hj.tidy.ne
    have hk := hj.inv.text.good
    have he : ∀ d : Cursor F, d.pc.path = [] → emitPath d = (.ok (), d) := by intro d h; unfold emitPath; rw [h]
    -- the two tags
    have htags : ∃ k : Words, k.Good ∧ readTokens fuel [.start n attrs, .stop n] c = (.ok (), c.say k) := by
      rw [readTokens_cons, SM.bind_run, readToken, SM.bind_run, pushStyle_plain ha hs]
      dsimp only
      unfold readStartElement
      dsimp only
      rw [if_neg (by rintro ⟨h, -⟩; rw [hdc] at h; cases h)]
      rcases hn with rfl | rfl
      · refine ⟨⟨false, c.inDescText, c.svg.titles ++ [[]], c.svg.descriptions⟩, ⟨fun h => (nomatch h), hk.desc⟩, ?_⟩
        have : drawFuncs fuel (useF fuel) "title".toList = some (titleF : List Attr → CM F Unit) := rfl
        rw [this]
        dsimp only
        unfold titleF
        rw [SM.modify_run]
        dsimp only
        rw [he]
        rotate_left
        · exact hp
        obtain ⟨pc, svg, ss, gr, it, id, ig, df, im, cd, mk⟩ := c
        rfl
      · refine ⟨⟨c.inTitleText, false, c.svg.titles, c.svg.descriptions ++ [[]]⟩, ⟨hk.title, fun h => (nomatch h)⟩, ?_⟩
        have : drawFuncs fuel (useF fuel) "desc".toList = some (descF : List Attr → CM F Unit) := rfl
        rw [this]
        dsimp only
        unfold descF
        rw [SM.modify_run]
        dsimp only
        rw [he]
        rotate_left
        · exact hp
        obtain ⟨pc, svg, ss, gr, it, id, ig, df, im, cd, mk⟩ := c
        rfl
    obtain ⟨k, gk, hk1⟩ := htags
    rw [show (.start n attrs :: .stop n :: post : List Token) = [.start n attrs, .stop n] ++ post from rfl, readTokens_append, SM.bind_run, hk1]
    have hA : TextApart (c.say k) c := ⟨c, k, c.words, gk, hk, rfl, rfl⟩
    obtain ⟨h1, h2⟩ := readTokens_apart fuel post hA
    exact finish_untold _ _ h1 h2

end Generic

section Example

attribute [local instance] asciiEnv
attribute [local instance] dummyLibm

/-- `<svg viewBox="0 0 9 9"><g fill="red">` and a rectangle, `</g></svg>`. -/
def toldDoc : List Token × List Token :=
  ([.start "svg".toList [⟨"viewBox".toList, "0 0 9 9".toList⟩], .start "g".toList [⟨"fill".toList, "red".toList⟩]],
   [.start "rect".toList [⟨"width".toList, "1".toList⟩, ⟨"height".toList, "1".toList⟩], .stop "rect".toList, .stop "g".toList, .stop "svg".toList])

/-- The drawing, and how many titles it has. -/
def drawnAndTitled (ts : List Token) : Option (List (SvgPath F64) × List Str) :=
  match parse (F := F64) 9 .strict ts .eof with
  | .done (some s) none [] => some (s.svgPaths, s.titles)
  | _ => none

set_option maxRecDepth 100000 in
/-- The hypotheses hold of a title in the group, which is a title of the drawing; there is one path. -/
theorem told_example :
    Tidy (toldDoc.1 ++ toldDoc.2) ∧ (∃ ch, openFrom [] toldDoc.1 = some ch ∧ ch ≠ [] ∧ inside "defs" ch = false) ∧
    ((drawnAndTitled (toldDoc.1 ++ .start "title".toList [⟨"id".toList, "a".toList⟩] :: ([.chars "A ".toList, .other, .chars "title".toList] ++
        .stop "title".toList :: toldDoc.2))).map fun x => (x.1.length, x.2)) = some (1, ["A title".toList]) := by
  refine ⟨⟨by decide +kernel, by decide +kernel, .inr (by decide +kernel)⟩, ⟨_, rfl, by decide, by decide +kernel⟩, by decide +kernel⟩

/-- `<svg><defs><g id="a">`, a title or nothing, a rectangle, `</g></defs>` and a use of the group. -/
def toldDefs (title : List Token) : List Token :=
  [.start "svg".toList [⟨"viewBox".toList, "0 0 9 9".toList⟩], .start "defs".toList [], .start "g".toList [⟨"id".toList, "a".toList⟩]] ++ title ++
  [.start "rect".toList [⟨"width".toList, "1".toList⟩, ⟨"height".toList, "1".toList⟩], .stop "rect".toList, .stop "g".toList, .stop "defs".toList,
   .start "use".toList [⟨"href".toList, "#a".toList⟩], .stop "use".toList, .stop "svg".toList]

set_option maxRecDepth 100000 in
/-- The restriction on the place is needed: a title with an identifier in a group of `defs` ends the group, and what follows it is not drawn. -/
theorem C94_defs_false :
    (drawnAndTitled (toldDefs [])).map (fun x => x.1.length) = some 1 ∧
    (drawnAndTitled (toldDefs [.start "title".toList [⟨"id".toList, "t".toList⟩], .stop "title".toList])).map (fun x => x.1.length) = some 0 := by
  decide +kernel

end Example

end GoSvg
