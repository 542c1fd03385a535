import Verif.Lemmas.ModeDoc

/-! What one token adds. -/

set_option linter.unusedSectionVars false

namespace GoSvg

variable {F : Type} [GoFloat F] [GoEnv]

open SM (get modify throw lift panic diverge forEach)

/-! ### The current path -/

/-- The operations of the element being read stay as they are. -/
def PathR (c c' : Cursor F) : Prop := c'.pc.path = c.pc.path

theorem pathR_pre : Pre (PathR (F := F)) := ⟨fun _ => rfl, fun h1 h2 => h2.trans h1⟩

theorem styleR_path {c c' : Cursor F} (h : StyleR c c') : PathR c c' := by rw [PathR, h.eq]

theorem pushStyle_path (attrs : List Attr) : Keeps PathR (pushStyle attrs : CM F Unit) := by
  intro c
  rcases pushStyle_frame attrs c with ⟨top, rest, st, c1, -, -, h, h'⟩ | ⟨-, h⟩
  · rw [h']; exact (styleR_path h : c1.pc.path = c.pc.path)
  · exact styleR_path h

/-- Only shapes and `use` draw. -/
theorem silent_path {fuel : Nat} {use : List Attr → CM F Unit} {tag : Str} {df : List Attr → CM F Unit}
    (h : drawFuncs fuel use tag = some df) (ht : tag ∉ shapeTags) (hu : tag ≠ "use".toList) (attrs : List Attr) :
    Keeps PathR (df attrs) := by
  rcases drawFuncs_cases h with ⟨h, -⟩ | ⟨-, rfl⟩ | ⟨-, rfl⟩ | ⟨-, rfl⟩ | ⟨-, rfl⟩ | ⟨-, rfl⟩ | ⟨-, rfl⟩ | ⟨-, rfl⟩ | ⟨-, rfl⟩ |
    ⟨-, rfl⟩ | ⟨h, -⟩
  · exact absurd h ht
  · intro c; have := (svgF_keeps attrs c).eq; rw [PathR, this]
  · exact keeps_pure pathR_pre _
  · intro c; have := (stopF_keeps attrs c).eq; rw [PathR, this]
  · exact keeps_modify fun _ => rfl
  · exact keeps_modify fun _ => rfl
  · exact keeps_modify fun _ => rfl
  · intro c; have := (linearGradientF_keeps attrs c).eq; rw [PathR, this]
  · intro c; have := (radialGradientF_keeps attrs c).eq; rw [PathR, this]
  · unfold maskF
    exact keeps_bind pathR_pre (keeps_get pathR_pre) fun _ => keeps_bind pathR_pre (keeps_lift pathR_pre _) fun _ =>
      keeps_modify fun _ => rfl
  · exact absurd h hu

/-! ### End tags and character data -/

/-- What an end tag changes. -/
structure EndR (c c' : Cursor F) : Prop where
  pc : c'.pc = c.pc
  eq : c'.svg = { c.svg with svgMasks := c'.svg.svgMasks, defs := c'.svg.defs }
  stack : c'.styleStack = c.styleStack.tail
  grad : c'.grad = c.grad
  title : c'.inTitleText = true → c.inTitleText = true
  desc : c'.inDescText = true → c.inDescText = true
  inGrad : c'.inGrad = true → c.inGrad = true
  inDefs : c'.inDefs = true → c.inDefs = true
  inMask : c'.inMask = true → c.inMask = true

theorem readEnd_cases (name : Str) (c : Cursor F) :
    (c.styleStack = [] ∧ readEndElement name c = (.panic .styleStack, c)) ∨
    (∃ c', c.styleStack ≠ [] ∧ readEndElement name c = (.ok (), c') ∧ EndR c c') := by
  unfold readEndElement
  rw [SM.bind_run]
  unfold popStyle
  cases hs : c.styleStack with
  | nil => exact .inl ⟨rfl, rfl⟩
  | cons st rest =>
    refine .inr ⟨_, List.cons_ne_nil _ _, rfl, ?_⟩
    have hs' : c.styleStack.tail = rest := by rw [hs]; rfl
    dsimp only
    split
    · split
      · exact ⟨rfl, rfl, hs'.symm, rfl, id, id, id, id, id⟩
      · exact ⟨rfl, rfl, hs'.symm, rfl, id, id, id, id, id⟩
    · split
      · split
        · exact ⟨rfl, rfl, hs'.symm, rfl, id, id, id, id, fun h => by cases h⟩
        · exact ⟨rfl, rfl, hs'.symm, rfl, id, id, id, id, fun h => by cases h⟩
      · split
        · exact ⟨rfl, rfl, hs'.symm, rfl, (fun h => by cases h), id, id, id, id⟩
        · split
          · exact ⟨rfl, rfl, hs'.symm, rfl, id, (fun h => by cases h), id, id, id⟩
          · split
            · split
              · exact ⟨rfl, rfl, hs'.symm, rfl, id, id, id, (fun h => by cases h), id⟩
              · exact ⟨rfl, rfl, hs'.symm, rfl, id, id, id, (fun h => by cases h), id⟩
            · split
              · exact ⟨rfl, rfl, hs'.symm, rfl, id, id, (fun h => by cases h), id, id⟩
              · exact ⟨rfl, rfl, hs'.symm, rfl, id, id, id, id, id⟩

/-- What character data changes. -/
structure CharR (c c' : Cursor F) : Prop where
  eq : c' = { c with svg := { c.svg with titles := c'.svg.titles, descriptions := c'.svg.descriptions } }

theorem readChars_keeps (s : Str) : Keeps CharR (readChars s : CM F Unit) := by
  intro c
  unfold readChars
  dsimp only
  split
  · exact ⟨rfl⟩
  · split <;> exact ⟨rfl⟩

theorem recordDef_eq (name : Str) (attrs : List Attr) (c : Cursor F) : recordDef name attrs c =
    { c with svg := { c.svg with defs := (recordDef name attrs c).svg.defs }, currentDef := (recordDef name attrs c).currentDef } := by
  unfold recordDef
  dsimp only
  split
  · split <;> rfl
  · rfl

/-! ### Every token -/

/-- What every token leaves alone: what has been collected, the mode, the document's transform. -/
structure GrowR (c c' : Cursor F) : Prop where
  svgPaths : c.svg.svgPaths <+: c'.svg.svgPaths
  mode : c'.pc.errorMode = c.pc.errorMode
  log : LogR c.pc.errorMode c.pc.log c'.pc.log
  transform : c'.svg.transform = c.svg.transform

theorem growR_pre : Pre (GrowR (F := F)) where
  refl _ := ⟨List.prefix_rfl, rfl, logR_refl _ _, rfl⟩
  trans h1 h2 := ⟨h1.1.trans h2.1, h2.2.trans h1.2, logR_trans h1.3 (h1.2 ▸ h2.3), h2.4.trans h1.4⟩

theorem elemR_grow {c c' : Cursor F} (h : ElemR c c') : GrowR c c' :=
  ⟨by rw [h.svgPaths]; exact List.prefix_rfl, h.mode, h.log, h.transform⟩

theorem emit_grow {c c' : Cursor F} (h : Emit c c') : GrowR c c' := by
  cases h with
  | nothing => exact growR_pre.refl c
  | lost => exact ⟨List.prefix_rfl, rfl, logR_refl _ _, rfl⟩
  | mask => exact ⟨List.prefix_rfl, rfl, logR_refl _ _, rfl⟩
  | doc => exact ⟨List.prefix_append _ _, rfl, logR_refl _ _, rfl⟩

theorem readStart_grow (fuel : Nat) (name : Str) (attrs : List Attr) :
    Keeps GrowR (readStartElement fuel name attrs : CM F Unit) := by
  intro c
  rcases readStartElement_cases fuel name attrs c with ⟨-, -, -, -, h⟩ | ⟨-, ⟨-, h⟩ | ⟨df, hd, ⟨-, h⟩ | ⟨-, c', hE, h⟩ | ⟨-, -, h⟩⟩⟩
  · rw [h]
    show GrowR c (recordDef name attrs c)
    rw [recordDef_eq]
    exact ⟨List.prefix_rfl, rfl, logR_refl _ _, rfl⟩
  · rw [h]; exact elemR_grow (handleError_elem _ c)
  · rw [h]; exact elemR_grow (drawFuncs_elem hd attrs c)
  · rw [h]; exact growR_pre.trans (elemR_grow (drawFuncs_elem hd attrs c)) (emit_grow hE)
  · rw [h]; exact elemR_grow (drawFuncs_elem hd attrs c)

theorem readToken_grow (fuel : Nat) (t : Token) : Keeps GrowR (readToken fuel t : CM F Unit) := by
  cases t with
  | start name attrs =>
    exact keeps_bind growR_pre (keeps_mono (pushStyle_elem attrs) fun _ _ => elemR_grow) fun _ => readStart_grow fuel name attrs
  | stop name =>
    intro c
    rcases readEnd_cases name c with ⟨-, h⟩ | ⟨c', -, h, hE⟩
    · rw [readToken, h]; exact growR_pre.refl c
    · rw [readToken, h]
      refine ⟨?_, by rw [hE.pc], by rw [hE.pc]; exact logR_refl _ _, by rw [hE.eq]⟩
      rw [hE.eq]; exact List.prefix_rfl
  | chars s =>
    intro c
    have h := (readChars_keeps s c).eq
    rw [readToken, h]
    exact ⟨List.prefix_rfl, rfl, logR_refl _ _, rfl⟩
  | other => exact keeps_pure growR_pre _

theorem readTokens_grow (fuel : Nat) : ∀ ts, Keeps GrowR (readTokens fuel ts : CM F Unit)
  | [] => keeps_pure growR_pre _
  | t :: ts => keeps_bind growR_pre (readToken_grow fuel t) fun _ => readTokens_grow fuel ts

theorem readTokens_append (fuel : Nat) : ∀ (ts us : List Token) (c : Cursor F),
    readTokens fuel (ts ++ us) c = (do readTokens fuel ts; readTokens fuel us : CM F Unit) c
  | [], us, c => rfl
  | t :: ts, us, c => by
    have e1 : readTokens fuel (t :: ts ++ us) c = (readToken fuel t >>= fun _ => readTokens fuel (ts ++ us)) c := rfl
    have e2 : readTokens fuel (t :: ts) c = (readToken fuel t >>= fun _ => readTokens fuel ts) c := rfl
    rw [e1, SM.bind_run, SM.bind_run, e2, SM.bind_run]
    rcases readToken fuel t c with ⟨r, d⟩
    cases r with
    | ok _ =>
      have := readTokens_append fuel ts us d
      rw [SM.bind_run] at this
      exact this
    | _ => rfl

/-! ### Paths per token -/

/-- What a token adds to the document's paths: at most one, the element's operations with the current style; nothing for
tokens other than start tags of shapes and `use`. -/
structure AddsPaths (t : Token) (c c' : Cursor F) (new : List (SvgPath F)) : Prop where
  paths : c'.svg.svgPaths = c.svg.svgPaths ++ new
  one : new.length ≤ 1
  tag : new ≠ [] → ∃ name attrs, t = .start name attrs ∧ (name ∈ shapeTags ∨ name = "use".toList)
  clean : c'.pc.path = []

theorem emit_adds {c c' : Cursor F} (h : Emit c c') : ∃ new, c'.svg.svgPaths = c.svg.svgPaths ++ new ∧ new.length ≤ 1 ∧
    (c.pc.path = [] → new = []) ∧ c'.pc.path = [] := by
  cases h with
  | nothing h => exact ⟨[], by simp, by simp, fun _ => rfl, h⟩
  | lost h => exact ⟨[], by simp, by simp, fun _ => rfl, rfl⟩
  | mask h => exact ⟨[], by simp, by simp, fun _ => rfl, rfl⟩
  | doc h => exact ⟨_, rfl, by simp, fun h' => absurd h' h, rfl⟩

theorem readStart_adds (fuel : Nat) (name : Str) (attrs : List Attr) (c : Cursor F) (hc : c.pc.path = [])
    (ht : (readStartElement fuel name attrs c).1.Tame) :
    ∃ new, AddsPaths (.start name attrs) c (readStartElement fuel name attrs c).2 new := by
  rcases readStartElement_cases fuel name attrs c with ⟨-, -, -, -, h⟩ | ⟨-, ⟨-, h⟩ | ⟨df, hd, ⟨hn, h⟩ | ⟨-, c', hE, h⟩ | ⟨-, -, h⟩⟩⟩
  · rw [h]
    refine ⟨[], ?_, by simp, fun h => absurd rfl h, ?_⟩
    · show (recordDef name attrs c).svg.svgPaths = _
      rw [recordDef_eq]; simp
    · show (recordDef name attrs c).pc.path = _
      rw [recordDef_eq]; exact hc
  · rw [h]
    refine ⟨[], by rw [(handleError_elem _ c).svgPaths]; simp, by simp, fun h => absurd rfl h, ?_⟩
    have := styleR_path (handleError_styleR (.cannotProcess name) c)
    exact Eq.trans this hc
  · rw [h] at ht; exact absurd ht hn
  · rw [h]
    obtain ⟨new, h1, h2, h3, h4⟩ := emit_adds hE
    refine ⟨new, by rw [h1, (drawFuncs_elem hd attrs c).svgPaths], h2, fun hne => ⟨name, attrs, rfl, ?_⟩, h4⟩
    by_cases hs : name ∈ shapeTags
    · exact .inl hs
    · by_cases hu : name = "use".toList
      · exact .inr hu
      · exact absurd (h3 ((silent_path hd hs hu attrs c).trans hc)) hne
  · rw [h] at ht; exact absurd ht id

theorem readToken_adds (fuel : Nat) (t : Token) (c : Cursor F) (hc : c.pc.path = []) (ht : (readToken fuel t c).1.Tame) :
    ∃ new, AddsPaths t c (readToken fuel t c).2 new := by
  cases t with
  | start name attrs =>
    have hp := pushStyle_path attrs c
    have he := pushStyle_elem attrs c
    rw [readToken, SM.bind_run] at ht ⊢
    rcases hr : pushStyle attrs c with ⟨r, d⟩
    rw [hr] at hp he ht
    have base : AddsPaths (.start name attrs) c d [] :=
      ⟨by rw [he.svgPaths]; simp, by simp, fun h => absurd rfl h, hp.trans hc⟩
    cases r with
    | ok _ =>
      obtain ⟨new, h⟩ := readStart_adds fuel name attrs d (hp.trans hc) ht
      exact ⟨new, by rw [← he.svgPaths]; exact h.paths, h.one, h.tag, h.clean⟩
    | err e => exact ⟨[], base⟩
    | panic e => exact ⟨[], base⟩
    | diverge => exact ⟨[], base⟩
  | stop name =>
    rcases readEnd_cases name c with ⟨-, h⟩ | ⟨c', -, h, hE⟩
    · rw [readToken, h]; exact ⟨[], by simp, by simp, fun h => absurd rfl h, hc⟩
    · rw [readToken, h]; exact ⟨[], by rw [hE.eq]; simp, by simp, fun h => absurd rfl h, by rw [hE.pc]; exact hc⟩
  | chars s =>
    have h := (readChars_keeps s c).eq
    rw [readToken, h]
    exact ⟨[], by simp, by simp, fun h => absurd rfl h, hc⟩
  | other => exact ⟨[], by simp [readToken], by simp, fun h => absurd rfl h, hc⟩

end GoSvg
