import Verif.Lemmas.BareDoc
import Verif.Lemmas.Places
import Verif.Props.Nesting
import Verif.Model.F64

/-! C91: comments, attributes nobody knows, and text outside titles. -/

set_option linter.unusedSectionVars false

namespace GoSvg

open Spec

section Generic

variable {F : Type} [GoFloat F] [GoEnv]

open SM (get modify throw lift panic diverge forEach)

theorem textIf_true (ts : List Str) : ts.map (textIf true) = ts := by
  rw [show textIf true = id from rfl, List.map_id]

theorem appendLast_blank {ts ts' : List Str} {s : Str} (h : appendLast ts s = some ts') : ts'.map (textIf false) = ts.map (textIf false) := by
  obtain ⟨i, t, rfl, rfl⟩ := appendLast_split h
  simp only [List.map_append, List.map_cons, List.map_nil]
  rfl

theorem readChars_unread (s : Str) : Unread true (readChars s : CM F Unit) := by
  intro c
  unfold readChars
  rw [show (c.bare true).inTitleText = c.inTitleText from rfl, show (c.bare true).svg.titles = c.svg.titles from textIf_true _]
  cases (if c.inTitleText = true then appendLast c.svg.titles s else some c.svg.titles) with
  | none => rfl
  | some titles =>
    dsimp only
    rw [show (c.bare true).inDescText = c.inDescText from rfl, show (c.bare true).svg.descriptions = c.svg.descriptions from textIf_true _]
    cases (if c.inDescText = true then appendLast c.svg.descriptions s else some c.svg.descriptions) with
    | none => simp only [Cursor.bare, Svg.bare, textIf_true]
    | some ds => simp only [Cursor.bare, Svg.bare, textIf_true]

theorem readChars_blank (s : Str) {c : Cursor F} (hc : TextOK c) : ∃ d, readChars s c = (.ok (), d) ∧ d.bare false = c.bare false := by
  have h := (readChars_ok s c hc).1
  unfold readChars at h ⊢
  cases h1 : (if c.inTitleText = true then appendLast c.svg.titles s else some c.svg.titles) with
  | none => rw [h1] at h; cases h
  | some titles =>
    rw [h1] at h
    dsimp only at h ⊢
    have e1 : titles.map (textIf false) = c.svg.titles.map (textIf false) := by
      split at h1
      · exact appendLast_blank h1
      · cases h1; rfl
    cases h2 : (if c.inDescText = true then appendLast c.svg.descriptions s else some c.svg.descriptions) with
    | none => rw [h2] at h; cases h
    | some ds =>
      have e2 : ds.map (textIf false) = c.svg.descriptions.map (textIf false) := by
        split at h2
        · exact appendLast_blank h2
        · cases h2; rfl
      refine ⟨_, rfl, ?_⟩
      simp only [Cursor.bare, Svg.bare, e1, e2]

theorem readStart_bare {T : Bool} (fuel : Nat) (name : Str) (attrs : List Attr) :
    Likewise T (readToken fuel (.start name attrs) : CM F Unit) (readToken fuel (.start name (bareAttrs name attrs))) := by
  rw [readToken, readToken]
  refine likewise_bind ?_ fun _ => readStart_likewise fuel name attrs
  rw [pushStyle_bare]
  exact likewise_of (pushStyle_unread _)

theorem readTokens_bare (fuel : Nat) : ∀ (ts : List Token), Likewise true (readTokens fuel ts : CM F Unit) (readTokens fuel (bareDoc ts))
  | [] => fun _ => rfl
  | .start name attrs :: ts => by
    rw [bareDoc, readTokens, readTokens]
    exact likewise_bind (readStart_bare fuel name attrs) fun _ => readTokens_bare fuel ts
  | .stop name :: ts => by
    rw [bareDoc, readTokens, readTokens]
    · exact likewise_bind (likewise_of (readEnd_unread name)) fun _ => readTokens_bare fuel ts
    · exact fun _ _ h => nomatch h
    · exact fun h => nomatch h
  | .chars s :: ts => by
    rw [bareDoc, readTokens, readTokens]
    · exact likewise_bind (likewise_of (readChars_unread s)) fun _ => readTokens_bare fuel ts
    · exact fun _ _ h => nomatch h
    · exact fun h => nomatch h
  | .other :: ts => by
    rw [bareDoc, readTokens]
    exact readTokens_bare fuel ts

theorem bareTags_start (name : Str) (attrs : List Attr) (ts : List Token) :
    bareTags (.start name attrs :: ts) = .start name (bareAttrs name attrs) :: bareTags ts := rfl
theorem bareTags_stop (name : Str) (ts : List Token) : bareTags (.stop name :: ts) = .stop name :: bareTags ts := rfl
theorem bareTags_chars (s : Str) (ts : List Token) : bareTags (.chars s :: ts) = bareTags ts := rfl
theorem bareTags_other (ts : List Token) : bareTags (.other :: ts) = bareTags ts := rfl

/-- Any site of a panic will do. -/
def AnySite : Site → Prop := fun s => s = .color ∨ s = .styleStack

theorem tokenOK_any (t : Token) : TokOK AnySite t := by
  cases t with
  | start n a =>
    obtain ⟨h1, h2⟩ := attrOK_color a
    exact ⟨fun kv hk hn => within_mono (h1 kv hk hn) (fun _ => .inl) id, fun b hb hn => within_mono (h2 b hb hn) (fun _ => .inl) id⟩
  | _ => trivial

theorem readTokens_blank (fuel : Nat) : ∀ (ts : List Token) (c : Cursor F), TokInv AnySite c →
    readTokens fuel (bareTags ts) (c.bare false) = ((readTokens fuel ts c).1, (readTokens fuel ts c).2.bare false)
  | [], _, _ => rfl
  | t :: ts, c, hc => by
    have hs := readToken_safe fuel (tokenOK_any t) hc (.inr (.inr rfl))
    have ih := fun c h => readTokens_blank fuel ts c h
    have go : ∀ t', Likewise false (readToken fuel t : CM F Unit) (readToken fuel t') → bareTags (t :: ts) = t' :: bareTags ts →
        readTokens fuel (bareTags (t :: ts)) (c.bare false) = ((readTokens fuel (t :: ts) c).1, (readTokens fuel (t :: ts) c).2.bare false) := by
      intro t' h e
      rw [e, readTokens_cons, readTokens_cons, SM.bind_run, SM.bind_run, h c]
      rcases hr : readToken fuel t c with ⟨r, c1⟩
      rw [hr] at hs
      cases r with
      | ok u => exact ih c1 hs.2
      | err e => rfl
      | panic e => rfl
      | diverge => rfl
    cases t with
    | start name attrs => exact go _ (readStart_bare fuel name attrs) (bareTags_start name attrs ts)
    | stop name => exact go _ (likewise_of (readEnd_unread name)) (bareTags_stop name ts)
    | chars s =>
      obtain ⟨d, h1, h2⟩ := readChars_blank s hc.text
      rw [bareTags_chars, readTokens_cons, SM.bind_run, show readToken fuel (.chars s) c = readChars s c from rfl, h1, ← h2]
      rw [show readToken fuel (.chars s) c = readChars s c from rfl, h1] at hs
      exact ih d hs.2
    | other => exact ih c hc

theorem bareDoc_any (ts : List Token) : (bareDoc ts).any Token.isStart = ts.any Token.isStart := by
  induction ts with
  | nil => rfl
  | cons t ts ih => cases t <;> simp only [bareDoc, List.any_cons, ih, Token.isStart, Bool.false_or]

theorem bareTags_any (ts : List Token) : (bareTags ts).any Token.isStart = ts.any Token.isStart := by
  induction ts with
  | nil => rfl
  | cons t ts ih =>
    cases t <;> simp only [bareTags_start, bareTags_stop, bareTags_chars, bareTags_other, List.any_cons, ih, Token.isStart, Bool.false_or]

theorem parse_bareDoc (fuel : Nat) (m : ErrorMode) (ts : List Token) (fin : StreamEnd) :
    parse fuel m (bareDoc ts) fin = (parse (F := F) fuel m ts fin).mapSvg (Svg.bare true) := by
  have h := readTokens_bare fuel ts (initCursor (F := F) m)
  rw [show (initCursor (F := F) m).bare true = initCursor m from rfl] at h
  unfold parse
  rw [h, bareDoc_any]
  rcases readTokens fuel ts (initCursor (F := F) m) with ⟨r, c⟩
  cases r with
  | ok u =>
    cases fin with
    | error e => rfl
    | eof => dsimp only; split <;> rfl
  | err e => rfl
  | panic e => rfl
  | diverge => rfl

theorem parse_bareTags (fuel : Nat) (m : ErrorMode) (ts : List Token) (fin : StreamEnd) :
    parse fuel m (bareTags ts) fin = (parse (F := F) fuel m ts fin).mapSvg (Svg.bare false) := by
  have h := readTokens_blank fuel ts (initCursor (F := F) m) (tokInv_init _ m)
  rw [show (initCursor (F := F) m).bare false = initCursor m from rfl] at h
  unfold parse
  rw [h, bareTags_any]
  rcases readTokens fuel ts (initCursor (F := F) m) with ⟨r, c⟩
  cases r with
  | ok u =>
    cases fin with
    | error e => rfl
    | eof => dsimp only; split <;> rfl
  | err e => rfl
  | panic e => rfl
  | diverge => rfl

theorem mapSvg_map (f g : Svg F → Svg F) (o : Outcome F) : (o.mapSvg f).mapSvg g = o.mapSvg fun s => g (f s) := by
  cases o with
  | done s e l => cases s <;> rfl
  | panic s => rfl
  | diverge => rfl

/-- C91, every document, well-nested or not, every mode and every end of the stream: two documents with the same tags, the same
text and the same attributes but for those that mean nothing in their elements, and with comments, processing instructions and
directives anywhere, give the same outcome: the same drawing as far as a caller sees it, the same error, the same messages. -/
theorem C91_unknown_attributes (fuel : Nat) (m : ErrorMode) {ts ts' : List Token} (h : bareDoc ts = bareDoc ts') (fin : StreamEnd) :
    (parse (F := F) fuel m ts fin).mapSvg Svg.seen = (parse fuel m ts' fin).mapSvg Svg.seen := by
  have key : ∀ ts, (parse (F := F) fuel m ts fin).mapSvg Svg.seen = (parse fuel m (bareDoc ts) fin).mapSvg Svg.seen := by
    intro ts
    rw [parse_bareDoc, mapSvg_map]
    congr 1
    funext s
    simp only [Svg.bare, Svg.seen, textIf_true]
  rw [key ts, key ts', h]

/-- C91, text: if besides the text differs, the outcomes differ in the texts of titles and descriptions only. Above all white
space between the elements changes nothing in the drawing. -/
theorem C91_text (fuel : Nat) (m : ErrorMode) {ts ts' : List Token} (h : bareTags ts = bareTags ts') (fin : StreamEnd) :
    (parse (F := F) fuel m ts fin).mapSvg (fun s => s.seen.textless) = (parse fuel m ts' fin).mapSvg fun s => s.seen.textless := by
  have key : ∀ ts, (parse (F := F) fuel m ts fin).mapSvg (fun s => s.seen.textless) =
      (parse fuel m (bareTags ts) fin).mapSvg fun s => s.seen.textless := by
    intro ts
    rw [parse_bareTags, mapSvg_map]
    congr 1
    funext s
    simp only [Svg.bare, Svg.seen, Svg.textless, List.map_map, Function.comp_def]
  rw [key ts, key ts', h]

end Generic

section Example

attribute [local instance] asciiEnv
attribute [local instance] dummyLibm

/-- `<svg viewBox="0 0 9 9"><!-- --> <defs><g id="a" data-a="1"><rect cx="7" width="2" height="3" class="b"/></g></defs>
<use href="#a" y="1" r="2" FILL="red"/><title lang="en">t</title></svg>`, with `data-a`, `cx`, `class`, `r` and `lang` or without
them. -/
def dressedDoc (x : Bool) : List Token :=
  let opt := fun (n v : String) => if x then [(⟨n.toList, v.toList⟩ : Attr)] else []
  [.start "svg".toList [⟨"viewBox".toList, "0 0 9 9".toList⟩]] ++ (if x then [.other] else []) ++
  [.start "defs".toList [], .start "g".toList (⟨"id".toList, "a".toList⟩ :: opt "data-a" "1"),
   .start "rect".toList (opt "cx" "7" ++ [⟨"width".toList, "2".toList⟩, ⟨"height".toList, "3".toList⟩] ++ opt "class" "b"),
   .stop "rect".toList, .stop "g".toList, .stop "defs".toList,
   .start "use".toList ([⟨"href".toList, "#a".toList⟩, ⟨"y".toList, "1".toList⟩] ++ opt "r" "2" ++ [⟨"FILL".toList, "red".toList⟩]), .stop "use".toList,
   .start "title".toList (opt "lang" "en"), .chars "t".toList, .stop "title".toList, .stop "svg".toList]

set_option maxRecDepth 100000 in
/-- The two documents differ, agree in what means something, and draw something. -/
theorem dressed_example : dressedDoc true ≠ dressedDoc false ∧ bareDoc (dressedDoc true) = bareDoc (dressedDoc false) ∧
    (match parse (F := F64) 9 .strict (dressedDoc true) .eof with
      | .done (some s) none [] => decide (s.svgPaths.length = 1 ∧ s.titles = ["t".toList])
      | _ => false) = true := by
  decide +kernel

set_option maxRecDepth 100000 in
/-- Text between the elements. -/
theorem spaced_example : bareTags (.chars " ".toList :: dressedDoc true) = bareTags (dressedDoc false) := by decide +kernel

set_option maxRecDepth 100000 in
/-- `FILL` means something: a presentation attribute is read in any case of letters, an attribute of an element's own is not. -/
theorem known_example : Known "use".toList ⟨"FILL".toList, []⟩ = true ∧ Known "rect".toList ⟨"WIDTH".toList, []⟩ = false ∧
    Known "rect".toList ⟨"cx".toList, []⟩ = false ∧ Known "circle".toList ⟨"cx".toList, []⟩ = true := by decide +kernel

end Example

end GoSvg
