import Verif.Lemmas.DocsNest
import Verif.Lemmas.Real
import Verif.Props.Parsing
import Verif.Model.RealFloat

/-! C28 and C34: the style stack, panics and termination. -/

set_option linter.unusedSectionVars false

namespace GoSvg

open Spec

variable {F : Type} [GoFloat F] [GoEnv]

open SM (get modify throw lift panic diverge forEach)

theorem parse_panic {fuel : Nat} {m : ErrorMode} {tokens : List Token} {fin : StreamEnd} {s : Site}
    (h : parse (F := F) fuel m tokens fin = .panic s) : (readTokens fuel tokens (initCursor (F := F) m)).1 = .panic s := by
  unfold parse at h
  rcases hr : readTokens fuel tokens (initCursor (F := F) m) with ⟨r, c⟩
  rw [hr] at h
  cases r with
  | ok u =>
    cases fin with
    | error e => cases h
    | eof => dsimp only at h; split at h <;> cases h
  | err e => cases h
  | panic e => cases h; rfl
  | diverge => cases h

theorem parse_diverge {fuel : Nat} {m : ErrorMode} {tokens : List Token} {fin : StreamEnd}
    (h : parse (F := F) fuel m tokens fin = .diverge) : (readTokens fuel tokens (initCursor (F := F) m)).1 = .diverge := by
  unfold parse at h
  rcases hr : readTokens fuel tokens (initCursor (F := F) m) with ⟨r, c⟩
  rw [hr] at h
  cases r with
  | ok u =>
    cases fin with
    | error e => cases h
    | eof => dsimp only at h; split at h <;> cases h
  | err e => cases h
  | panic e => cases h
  | diverge => rfl

/-! ### C34: where panics can come from -/

/-- C34, any input whatsoever, well-nested or not: a panic comes from a colour or from the style stack. The texts and the
gradients never panic. -/
theorem C34_panic_sites {fuel : Nat} {m : ErrorMode} {tokens : List Token} {fin : StreamEnd} {s : Site}
    (h : parse (F := F) fuel m tokens fin = .panic s) : s = .color ∨ s = .styleStack := by
  have hw := (any_walk (F := F) (B := fun s => s = .color ∨ s = .styleStack) (.inr rfl) fuel tokens (initCursor m) (tokInv_init _ m) (by
    intro t _
    cases t with
    | start n a =>
      obtain ⟨h1, h2⟩ := attrOK_color a
      exact ⟨fun kv hk hn => within_mono (h1 kv hk hn) (fun _ => .inl) id, fun b hb hn => within_mono (h2 b hb hn) (fun _ => .inl) id⟩
    | _ => trivial)).1
  rw [parse_panic h] at hw
  exact hw

/-- The well-nested documents for which the style stack is known to suffice: those without `use`, and the tidy ones. -/
def Orderly (tokens : List Token) : Prop := (WellNested tokens ∧ NoUse tokens) ∨ Tidy tokens

theorem orderly_within {B : Site → Prop} {fuel : Nat} {m : ErrorMode} {tokens : List Token} (h : Orderly tokens)
    (hc : TokensOK B tokens) : (readTokens fuel tokens (initCursor (F := F) m)).1.Within B True := by
  rcases h with ⟨h1, h2⟩ | h
  · obtain ⟨ch, hch⟩ := Option.isSome_iff_exists.1 h1
    exact (noUse_walk tokens [] ch _ (noUse_start m h2 hc) hch).1
  · obtain ⟨ch, hch⟩ := Option.isSome_iff_exists.1 h.nested
    exact (tidy_walk tokens [] ch _ (tidy_start m h hc) hch).1

/-- C34, partial: a well-nested document without `use`, or a tidy one, panics because of colours only. -/
theorem C34_only_colors_partial {fuel : Nat} {m : ErrorMode} {tokens : List Token} {fin : StreamEnd} {s : Site} (ho : Orderly tokens)
    (h : parse (F := F) fuel m tokens fin = .panic s) : s = .color := by
  have hw := orderly_within (F := F) (fuel := fuel) (m := m) ho (tokensOK_color tokens)
  rw [parse_panic h] at hw
  exact hw

/-- C34, partial: if besides its colours have the shape of colours, parsing does not panic. Missing: the documents of
`C34_color_false` and `C34_use_false`. -/
theorem C34_no_panic_partial {fuel : Nat} {m : ErrorMode} {tokens : List Token} {fin : StreamEnd} (ho : Orderly tokens)
    (hc : ColorsShaped tokens) (s : Site) : parse (F := F) fuel m tokens fin ≠ .panic s := by
  intro h
  have hw := orderly_within (F := F) (fuel := fuel) (m := m) ho (tokensOK_shaped hc)
  rw [parse_panic h] at hw
  exact hw

/-! ### C34: termination -/

theorem readToken_ends {B : Site → Prop} (hB : ∀ s, B s) {fuel : Nat} (hF : RectsEnd F fuel) {t : Token}
    (hu : ∀ attrs, t ≠ .start "use".toList attrs) {c : Cursor F} (hc : TokInv B c) : (readToken fuel t c).1.Within B False := by
  have all : ∀ {α : Type} {r : Res α}, r.Within (· = .color) False → r.Within B False := fun w => within_mono w (fun s _ => hB s) id
  cases t with
  | start name attrs =>
    have hw := pushStyle_within attrs c (B := B) (.inr (hB _)) fun kv h1 h2 => all ((attrOK_color attrs).paint kv h1 h2)
    have he := pushStyle_elem attrs c
    have hk := pushStyle_keepsGrad attrs c
    rw [readToken, SM.bind_run]
    rcases hp : pushStyle attrs c with ⟨r, d⟩
    rw [hp] at hw he hk
    have hd : TokInv B d := tokInv_rel he hk hc
    cases r with
    | err e => trivial
    | panic s => exact hw
    | diverge => exact hw
    | ok u =>
      dsimp only
      have hdf : ∀ df, drawFuncs fuel (useF fuel) name = some df → (df attrs d).1.Within B False := fun df hdr =>
        drawFuncs_within hdr (fun h => hu attrs (by rw [h])) (.inr hF) attrs
          (fun a h1 h2 => all ((attrOK_color attrs).stop a h1 h2)) d (.inr (hB _)) hd.grad
      rcases readStartElement_cases fuel name attrs d with ⟨-, -, -, -, h⟩ | ⟨-, ⟨-, h⟩ | ⟨df, hdr, ⟨hn, h⟩ | ⟨-, c', hE, h⟩ | ⟨htm, hn, h⟩⟩⟩
      · rw [h]; trivial
      · rw [h]; exact tame_within (handleError_tame _ d)
      · rw [h]; exact hdf df hdr
      · rw [h]; exact hdf df hdr
      · rw [h]; exact hB _
  | stop name =>
    rcases readEnd_cases name c with ⟨h0, h⟩ | ⟨c', -, h, -⟩
    · rw [readToken, h]; exact hB _
    · rw [readToken, h]; trivial
  | chars s => rw [readToken, (readChars_ok s c hc.text).1]; trivial
  | other => trivial

theorem readTokens_ends {fuel : Nat} (hF : RectsEnd F fuel) : ∀ (ts : List Token) (c : Cursor F), NoUse ts → TokInv (fun _ => True) c →
    (readTokens fuel ts c).1.Within (fun _ => True) False
  | [], _, _, _ => trivial
  | t :: ts, c, hu, hc => by
    have hok : TokOK (fun _ => True) t := by
      cases t with
      | start n a =>
        exact ⟨fun kv h1 h2 => within_mono ((attrOK_color a).paint kv h1 h2) (fun _ _ => trivial) id,
          fun b h1 h2 => within_mono ((attrOK_color a).stop b h1 h2) (fun _ _ => trivial) id⟩
      | _ => trivial
    have h1 := readToken_ends (B := fun _ => True) (fun _ => trivial) hF (noUse_cons hu).1 hc
    have h2 := (readToken_safe fuel hok hc (.inr trivial)).2
    rw [readTokens_cons, SM.bind_run]
    rcases hr : readToken fuel t c with ⟨r, c1⟩
    rw [hr] at h1 h2
    cases r with
    | ok u => exact readTokens_ends hF ts c1 (noUse_cons hu).2 h2
    | err e => trivial
    | panic s => trivial
    | diverge => exact h1

theorem raise_ends {fuel : Nat} (hf : 1 ≤ fuel) {t l : F} (h : GoFloat.lt (t +. GoFloat.piMul 2) l = false) : (raise fuel t l).isSome = true := by
  obtain ⟨n, rfl⟩ := Nat.exists_eq_add_of_le' hf
  rw [raise.eq_def]
  dsimp only
  split
  · rw [raise.eq_def]
    dsimp only
    rw [h]; rfl
  · rfl

/-- Angles as `math.Atan2` gives them: one raised by a full turn is not below another. In Go both are within [-π, π], or not
a number. -/
def AnglesClose (F : Type) [GoFloat F] : Prop :=
  ∀ a b c d : F, GoFloat.lt (GoFloat.atan2 a b +. GoFloat.piMul 2) (GoFloat.atan2 c d) = false

theorem roundGap_ends (h : AnglesClose F) {fuel : Nat} (hf : 1 ≤ fuel) (m : Matrix2D F) (a t l : Pt) : (roundGap fuel m a t l).isSome = true := by
  unfold roundGap addArcCirc
  simp only [Option.isSome_map]
  rw [if_neg (by decide), Option.isSome_map]
  exact raise_ends hf (h _ _ _ _)

theorem addRoundRect_ends (h : AnglesClose F) {fuel : Nat} (hf : 1 ≤ fuel) (minX minY maxX maxY rx ry rot : F) :
    addRoundRect fuel minX minY maxX maxY rx ry rot ≠ none := by
  intro hn
  unfold addRoundRect at hn
  by_cases h0 : (GoFloat.le rx (num 0) || GoFloat.le ry (num 0)) = true
  · rw [if_pos h0] at hn; cases hn
  · rw [if_neg h0] at hn
    dsimp only at hn
    generalize hg1 : roundGap (F := F) fuel _ _ _ _ = g1 at hn
    generalize hg2 : roundGap (F := F) fuel _ _ _ _ = g2 at hn
    generalize hg3 : roundGap (F := F) fuel _ _ _ _ = g3 at hn
    generalize hg4 : roundGap (F := F) fuel _ _ _ _ = g4 at hn
    have e1 : g1.isSome = true := by rw [← hg1]; exact roundGap_ends h hf ..
    have e2 : g2.isSome = true := by rw [← hg2]; exact roundGap_ends h hf ..
    have e3 : g3.isSome = true := by rw [← hg3]; exact roundGap_ends h hf ..
    have e4 : g4.isSome = true := by rw [← hg4]; exact roundGap_ends h hf ..
    cases g1 with
    | none => cases e1
    | some g1 =>
      cases g2 with
      | none => cases e2
      | some g2 =>
        cases g3 with
        | none => cases e3
        | some g3 =>
          cases g4 with
          | none => cases e4
          | some g4 => cases hn

theorem rectsEnd_of (h : AnglesClose F) {fuel : Nat} (hf : 1 ≤ fuel) : RectsEnd F fuel := by
  intro x y v hn
  unfold rectOps at hn
  by_cases h0 : (GoFloat.eq v.w (num 0) || GoFloat.eq v.h (num 0)) = true
  · rw [if_pos h0] at hn; cases hn
  · rw [if_neg h0] at hn
    exact addRoundRect_ends h hf _ _ _ _ _ _ _ hn

theorem anglesClose_real : AnglesClose ℝ := by
  intro a b c d
  show decide (Complex.arg ⟨b, a⟩ + ((2 : ℚ) : ℝ) * Real.pi < Complex.arg ⟨d, c⟩) = false
  have h1 := Complex.neg_pi_lt_arg ⟨b, a⟩
  have h2 := Complex.arg_le_pi ⟨d, c⟩
  have h3 := Real.pi_pos
  rw [decide_eq_false_iff_not]
  push_cast
  intro h
  linarith

/-- C34, partial: without `use` parsing terminates on every input, well-nested or not, in any arithmetic whose angles are
close. (The budget of one is for the angle loop of rounded rectangles, which runs once at most.) With `use` see
`C42_terminates_partial` and `C42_circle_false`. -/
theorem C34_terminates_partial (h : AnglesClose F) {fuel : Nat} (hf : 1 ≤ fuel) {tokens : List Token} (hu : NoUse tokens)
    (m : ErrorMode) (fin : StreamEnd) : parse (F := F) fuel m tokens fin ≠ .diverge := by
  intro hd
  have := readTokens_ends (rectsEnd_of h hf) tokens (initCursor (F := F) m) hu (tokInv_init _ m)
  rw [parse_diverge hd] at this
  exact this

/-- The same in exact arithmetic, where the hypothesis holds. -/
theorem C34_terminates_real_partial {fuel : Nat} (hf : 1 ≤ fuel) {tokens : List Token} (hu : NoUse tokens) (m : ErrorMode)
    (fin : StreamEnd) : parse (F := ℝ) fuel m tokens fin ≠ .diverge := C34_terminates_partial anglesClose_real hf hu m fin

/-! ### C28: the current style -/

/-- C28, documents without `use`: the parser always has a current style. -/
theorem C28_no_stack_panic {fuel : Nat} {m : ErrorMode} {tokens : List Token} {fin : StreamEnd} (hn : WellNested tokens)
    (hu : NoUse tokens) : parse (F := F) fuel m tokens fin ≠ .panic .styleStack := by
  intro h
  exact absurd (C34_only_colors_partial (.inl ⟨hn, hu⟩) h) (by decide)

/-- C28, partial, documents with `use`: if they are tidy, the parser always has a current style. Missing: `use` of a
definition that is not complete, see `C28_use_false`. -/
theorem C28_no_stack_panic_use_partial {fuel : Nat} {m : ErrorMode} {tokens : List Token} {fin : StreamEnd} (ht : Tidy tokens) :
    parse (F := F) fuel m tokens fin ≠ .panic .styleStack := by
  intro h
  exact absurd (C34_only_colors_partial (.inr ht) h) (by decide)

theorem openFrom_lift (base : List Elem) : ∀ (ts : List Token) (ch ch' : List Elem), openFrom ch ts = some ch' →
    openFrom (ch ++ base) ts = some (ch' ++ base)
  | [], ch, ch', h => by cases h; rfl
  | .start n a :: ts, ch, ch', h => openFrom_lift base ts (⟨n, a⟩ :: ch) ch' h
  | .stop n :: ts, ch, ch', h => by
    cases ch with
    | nil => cases h
    | cons e ch =>
      simp only [openFrom] at h
      split at h
      · rename_i he
        show (if e.name = n then openFrom (ch ++ base) ts else none) = _
        rw [if_pos he]
        exact openFrom_lift base ts ch ch' h
      · cases h
  | .chars s :: ts, ch, ch', h => openFrom_lift base ts ch ch' h
  | .other :: ts, ch, ch', h => openFrom_lift base ts ch ch' h

theorem step_lift {ch ch' : List Elem} {t : Token} (h : Step ch t ch') (base : List Elem) : Step (ch ++ base) t (ch' ++ base) := by
  cases h with
  | start _ _ => exact .start ..
  | stop e => exact .stop e _
  | chars _ => exact .chars ..
  | other => exact .other ..

/-- One token leaves the styles below its own alone. -/
theorem step_base {fuel : Nat} {t : Token} {c c' : Cursor F} {u : Unit} {ch ch' : List Elem} {up base : List (PathStyle F)} (hc : Inv c)
    (hu : UseFine t c) (hb : c.styleStack = up ++ base) (hl : up.length = ch.length) (hst : Step ch t ch')
    (h : readToken fuel t c = (.ok u, c')) : ∃ up', c'.styleStack = up' ++ base ∧ up'.length = ch'.length := by
  cases hst with
  | start name attrs =>
    obtain ⟨top, rest, st, c1, h1, -, h2, -⟩ := start_stack hc hu h
    exact ⟨st :: up, by rw [h2, ← h1, hb]; rfl, by simp [hl]⟩
  | stop e ch =>
    obtain ⟨-, hE⟩ := stop_stack h
    cases up with
    | nil => simp at hl
    | cons x up => exact ⟨up, by rw [hE.stack, hb]; rfl, by simpa using hl⟩
  | chars s => rw [chars_fields h]; exact ⟨up, hb, hl⟩
  | other => cases h; exact ⟨up, hb, hl⟩

theorem restored {J : List Elem → List Token → Cursor F → Prop} {fuel : Nat}
    (hinv : ∀ ch t ts c, J ch (t :: ts) c → Inv c ∧ UseFine t c)
    (hstep : ∀ ch t ts c ch1 c1 u, J ch (t :: ts) c → Step ch t ch1 → readToken fuel t c = (.ok u, c1) → J ch1 ts c1) (ch0 : List Elem)
    (base : List (PathStyle F)) : ∀ (ts : List Token) (ch ch' : List Elem) (up : List (PathStyle F)) (c c' : Cursor F), J (ch ++ ch0) ts c →
      openFrom ch ts = some ch' → c.styleStack = up ++ base → up.length = ch.length → readTokens fuel ts c = (.ok (), c') →
      ∃ up', c'.styleStack = up' ++ base ∧ up'.length = ch'.length
  | [], ch, ch', up, c, c', _, h, hb, hl, hr => by cases h; cases hr; exact ⟨up, hb, hl⟩
  | t :: ts, ch, ch', up, c, c', hj, h, hb, hl, hr => by
    obtain ⟨ch1, hst, h⟩ := openFrom_cons h
    obtain ⟨h1, h2⟩ := hinv _ _ _ _ hj
    rw [readTokens_cons, SM.bind_run] at hr
    rcases ht : readToken fuel t c with ⟨r, c1⟩
    rw [ht] at hr
    cases r with
    | ok u =>
      obtain ⟨up', hb', hl'⟩ := step_base h1 h2 hb hl hst ht
      exact restored hinv hstep ch0 base ts ch1 ch' up' c1 c' (hstep _ _ _ _ _ _ _ hj (step_lift hst ch0) ht) h hb' hl' hr
    | err e => cases hr
    | panic s => cases hr
    | diverge => cases hr

/-- C28, documents without `use`: after complete elements the current style, and every style under it, is what it was. -/
theorem C28_restored {fuel : Nat} {m : ErrorMode} {pre els : List Token} {c c' : Cursor F} (hu : NoUse (pre ++ els)) (hp : WellNested pre)
    (he : openFrom [] els = some []) (h : readTokens fuel pre (initCursor m) = (.ok (), c)) (h' : readTokens fuel els c = (.ok (), c')) :
    c'.styleStack = c.styleStack ∧ c.styleStack ≠ [] := by
  obtain ⟨ch, hch⟩ := Option.isSome_iff_exists.1 hp
  have hj := noUse_start (F := F) (B := (· = .color)) m (ts := pre) (fun a h => hu a (List.mem_append_left _ h)) (tokensOK_color _)
  have hw := (noUse_walk (fuel := fuel) pre [] ch _ hj hch).2 (by rw [h])
  rw [h] at hw
  dsimp only at hw
  have hjc : NoUseAt (· = .color) ([] ++ ch) els c :=
    ⟨hw.walk, hw.inv, fun a h => hu a (List.mem_append_right _ h), tokensOK_color _⟩
  obtain ⟨up, h1, h2⟩ := restored (F := F) (J := NoUseAt (· = .color)) (fuel := fuel)
    (fun ch t ts c hj => ⟨hj.inv, .inl (noUse_cons hj.noUse).1⟩)
    (fun ch t ts c ch1 c1 u hj hst hr => by
      have hu : UseFine t c := .inl (noUse_cons hj.noUse).1
      exact ⟨step_walk hj.walk hu hst hr, step_inv hj.walk.inv hj.walk.ne hu hr, (noUse_cons hj.noUse).2, tokensOK_color _⟩)
    ch c.styleStack els [] [] [] c c' hjc he rfl rfl h'
  cases up with
  | nil => exact ⟨h1, hw.walk.ne⟩
  | cons _ _ => cases h2

/-- C28, partial, documents with `use`: the same for tidy ones. -/
theorem C28_restored_use_partial {fuel : Nat} {m : ErrorMode} {pre els : List Token} {c c' : Cursor F} (ht : Tidy (pre ++ els))
    (he : openFrom [] els = some []) (h : readTokens fuel pre (initCursor m) = (.ok (), c)) (h' : readTokens fuel els c = (.ok (), c')) :
    c'.styleStack = c.styleStack ∧ c.styleStack ≠ [] := by
  obtain ⟨ch', hch'⟩ := Option.isSome_iff_exists.1 ht.nested
  obtain ⟨ch, hch, -⟩ := openFrom_prefix hch'
  have hpl := (every_append pre els hch).1 ht.places
  have hj : TidyRest (F := F) (· = .color) [] pre (initCursor m) := tidy_start m
    ⟨by rw [WellNested, hch]; rfl, hpl.1, ht.defs.imp (fun h a hm => h a (List.mem_append_left _ hm)) fun h => ((every_append pre els hch).1 h).1⟩
    (tokensOK_color _)
  have hw := (tidy_walk (fuel := fuel) pre [] ch _ hj hch).2 (by rw [h])
  rw [h] at hw
  dsimp only at hw
  have hdefs : NoUse els ∨ (Every DefsTag ch els ∧ DefsAt ch c) := by
    rcases ht.defs with hd | hd
    · exact .inl fun a hm => hd a (List.mem_append_right _ hm)
    · rcases hw.defs with hx | ⟨-, hx⟩
      · -- the prefix is walked with the definitions tracked
        have hj2 : TidyRest (F := F) (· = .color) [] pre (initCursor m) :=
          ⟨tidy_init m, tokInv_init _ m, hpl.1, .inr ⟨((every_append pre els hch).1 hd).1, defs_init m⟩, tokensOK_color _⟩
        have key : ∀ (ts : List Token) (a b : List Elem) (c c' : Cursor F), TidyRest (· = .color) a ts c → Every DefsTag a ts → DefsAt a c →
            openFrom a ts = some b → readTokens fuel ts c = (.ok (), c') → DefsAt b c' := by
          intro ts
          induction ts with
          | nil => intro a b c c' _ _ hd ho hr; cases ho; cases hr; exact hd
          | cons t ts ih =>
            intro a b c c' hj he hd ho hr
            obtain ⟨a1, hst, ho⟩ := openFrom_cons ho
            rw [readTokens_cons, SM.bind_run] at hr
            rcases htk : readToken fuel t c with ⟨r, c1⟩
            rw [htk] at hr
            cases r with
            | ok u =>
              obtain ⟨p1, -⟩ := every_cons hst hj.places
              obtain ⟨q1, q2⟩ := every_cons hst he
              exact ih a1 b c1 c' (tidyRest_step hj hst htk) q2 (step_defs hj.tidy hd p1 q1 hst htk) ho hr
            | err e => cases hr
            | panic s => cases hr
            | diverge => cases hr
        have := key pre [] ch _ c hj2 ((every_append pre els hch).1 hd).1 (defs_init m) hch h
        exact .inr ⟨((every_append pre els hch).1 hd).2, this⟩
      · exact .inr ⟨((every_append pre els hch).1 hd).2, hx⟩
  have hjc : TidyRest (· = .color) ([] ++ ch) els c := ⟨hw.tidy, hw.inv, hpl.2, hdefs, tokensOK_color _⟩
  obtain ⟨up, h1, h2⟩ := restored (F := F) (J := TidyRest (· = .color)) (fuel := fuel)
    (fun ch t ts c hj => ⟨hj.inv, hj.useFine⟩) (fun ch t ts c ch1 c1 u hj hst hr => tidyRest_step hj hst hr)
    ch c.styleStack els [] [] [] c c' hjc he rfl rfl h'
  cases up with
  | nil => exact ⟨h1, hw.tidy.ne⟩
  | cons _ _ => cases h2

end GoSvg

namespace GoSvg

open Spec

/-! ### Examples and witnesses -/

section Examples

attribute [local instance] asciiEnv
attribute [local instance] dummyLibm

/-- A document with groups, definitions, a gradient, a use of a definition and colours. -/
def exTidy : List Token :=
  elem "svg" [("viewBox", "0 0 10 10")]
    (elem "defs" []
      (elem "linearGradient" [("id", "l")] (elem "stop" [("offset", "0.5"), ("stop-color", "#f00")] []) ++
       elem "g" [("id", "a")] (elem "rect" [("width", "2"), ("height", "2"), ("fill", "rgb(1,2,3)")] [])) ++
     elem "title" [] [.chars "t".toList] ++
     elem "g" [("style", "fill:url(#l);stroke:blue")] (elem "use" [("href", "#a"), ("x", "3")] []))

/-- The same without `use`. -/
def exNoUse : List Token :=
  elem "svg" [] (elem "g" [("fill", "#abc")] (elem "rect" [("width", "2"), ("height", "2")] []))

theorem exTidy_tidy : Tidy exTidy :=
  ⟨by decide +kernel, by decide +kernel, .inr (by decide +kernel)⟩

theorem exNoUse_ok : WellNested exNoUse ∧ NoUse exNoUse := ⟨by decide +kernel, by decide +kernel⟩

/-- The colours of the examples have the shape of colours. -/
theorem exTidy_shaped : ColorsShaped exTidy := by
  decide +kernel

/-- The example is parsed: a path, a title. -/
theorem exTidy_runs : (match parse (F := F64) 5 .strict exTidy .eof with
    | .done (some s) none [] => decide (s.svgPaths.length = 1 ∧ s.titles = ["t".toList]) | _ => false) = true := by decide +kernel

/-- C34 and C28 apply to the examples. -/
theorem exTidy_no_panic (fuel : Nat) (m : ErrorMode) (s : Site) : parse (F := F64) fuel m exTidy .eof ≠ .panic s :=
  C34_no_panic_partial (.inr exTidy_tidy) exTidy_shaped s

theorem exNoUse_ends (m : ErrorMode) : parse (F := ℝ) 1 m exNoUse .eof ≠ .diverge :=
  C34_terminates_real_partial le_rfl exNoUse_ok.2 m .eof

/-- After the definitions of the example the current style is what it was before. -/
theorem exTidy_restored : ∃ c c' : Cursor F64, readTokens 5 (exTidy.take 1) (initCursor .strict) = (.ok (), c) ∧
    readTokens 5 (exTidy.drop 1 |>.take 10) c = (.ok (), c') ∧ openFrom [] (exTidy.drop 1 |>.take 10) = some [] ∧
    c'.styleStack = c.styleStack ∧ c.styleStack.length = 2 := by
  have h : (match readTokens 5 (exTidy.take 1) (initCursor (F := F64) .strict) with
    | (.ok (), c) => (match readTokens 5 (exTidy.drop 1 |>.take 10) c with | (.ok (), _) => decide (c.styleStack.length = 2) | _ => false)
    | _ => false) = true := by decide +kernel
  split at h
  · rename_i c hc
    split at h
    · rename_i c' hc'
      have ht : Tidy (exTidy.take 1 ++ (exTidy.drop 1 |>.take 10)) :=
        ⟨by decide +kernel, by decide +kernel, .inr (by decide +kernel)⟩
      exact ⟨c, c', hc, hc', by decide +kernel, (C28_restored_use_partial ht (by decide +kernel) hc hc').1, of_decide_eq_true h⟩
    · cases h
  · cases h

/-- C34 does not hold for all documents: an empty colour, a `#` with too little after it and `rgb(1,,2)` each make the parser
panic, in any mode. -/
theorem C34_color_false : ∀ m ∈ [ErrorMode.ignore, .warn, .strict], ∀ v ∈ ["", "#", "#12", "rgb(1,,2)"],
    WellNested (elem "svg" [] (elem "rect" [("fill", v)] [])) ∧
    parse (F := F64) 5 m (elem "svg" [] (elem "rect" [("fill", v)] [])) .eof = .panic .color := by
  decide +kernel

/-- A group in `defs` with an `id` on one of its children: the child's recording ends with the end tag of the group. -/
def exUnbalanced : List Token :=
  elem "svg" [] (elem "defs" [] (elem "g" [("id", "a")] (elem "path" [("id", "b")] [])) ++
    elem "use" [("href", "#b")] [] ++ elem "use" [("href", "#b")] [] ++ elem "use" [("href", "#b")] [])

/-- C28 (and C34) do not hold for all documents: a well-nested document whose third use of a definition finds the style stack
empty and makes the parser panic. -/
theorem C28_use_false : ∀ m ∈ [ErrorMode.ignore, .warn, .strict], WellNested exUnbalanced ∧
    parse (F := F64) 5 m exUnbalanced .eof = .panic .styleStack := by
  decide +kernel

end Examples

end GoSvg
