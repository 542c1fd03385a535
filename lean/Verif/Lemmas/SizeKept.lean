import Verif.Lemmas.Defs

/-! The width and the height of a drawing after its root. -/

set_option linter.unusedSectionVars false

namespace GoSvg

open Spec

variable {F : Type} [GoFloat F] [GoEnv]

open SM (get modify throw lift panic diverge forEach)

/-! ### The size -/

def WideR (c c' : Cursor F) : Prop := (c'.svg.width, c'.svg.height) = (c.svg.width, c.svg.height)

theorem wideR_pre : Pre (WideR (F := F)) := ⟨fun _ => rfl, fun h1 h2 => h2.trans h1⟩

theorem styleR_wide {c c' : Cursor F} (h : StyleR c c') : WideR c c' := by rw [WideR, h.eq]

theorem pushStyle_wide (attrs : List Attr) : Keeps WideR (pushStyle attrs : CM F Unit) := by
  intro c
  rcases pushStyle_frame attrs c with ⟨top, rest, st, c1, -, -, h, h'⟩ | ⟨-, h⟩
  · rw [h']; exact (styleR_wide h : (c1.svg.width, c1.svg.height) = (c.svg.width, c.svg.height))
  · exact styleR_wide h

/-- Only `svg` sets the size. -/
theorem draw_wide {fuel : Nat} {use : List Attr → CM F Unit} {tag : Str} {df : List Attr → CM F Unit}
    (h : drawFuncs fuel use tag = some df) (ht : tag ≠ "svg".toList) (hu : tag ≠ "use".toList) (attrs : List Attr) :
    Keeps WideR (df attrs) := by
  rcases drawFuncs_cases h with ⟨-, h⟩ | ⟨h, -⟩ | ⟨-, rfl⟩ | ⟨-, rfl⟩ | ⟨-, rfl⟩ | ⟨-, rfl⟩ | ⟨-, rfl⟩ | ⟨-, rfl⟩ | ⟨-, rfl⟩ |
    ⟨-, rfl⟩ | ⟨h, -⟩
  · intro c; have := (h attrs c).eq; rw [WideR, this]
  · exact absurd h ht
  · exact keeps_pure wideR_pre _
  · intro c; have := (stopF_keeps attrs c).eq; rw [WideR, this]
  · exact keeps_modify fun _ => rfl
  · exact keeps_modify fun _ => rfl
  · exact keeps_modify fun _ => rfl
  · intro c; have := (linearGradientF_keeps attrs c).eq; rw [WideR, this]
  · intro c; have := (radialGradientF_keeps attrs c).eq; rw [WideR, this]
  · unfold maskF
    exact keeps_bind wideR_pre (keeps_get wideR_pre) fun _ => keeps_bind wideR_pre (keeps_lift wideR_pre _) fun _ =>
      keeps_modify fun _ => rfl
  · exact absurd h hu

theorem wide_use : UsePreQ (· ≠ "svg".toList) (WideR (F := F)) where
  toPre := wideR_pre
  push := pushStyle_wide
  pop := by intro c; unfold popStyle; split <;> rfl
  error m c := styleR_wide (handleError_styleR m c)
  plain h hu hq attrs := draw_wide h hq hu attrs
  offset _ _ _ := rfl

theorem readToken_wide (fuel : Nat) {t : Token} (ht : TokQ NoSvgDef t) {c : Cursor F} (hc : DefsQ NoSvgDef c) :
    WideR c (readToken fuel t c).2 := by
  cases t with
  | start name attrs =>
    rw [readToken, SM.bind_run]
    have hp := defsQ_elem (pushStyle_elem attrs c) hc
    have hbx := pushStyle_wide attrs c
    rcases hr : pushStyle attrs c with ⟨r, d⟩
    rw [hr] at hp hbx
    dsimp only at hp hbx
    cases r with
    | ok u =>
      dsimp only
      refine wideR_pre.trans hbx ?_
      have hdf : ∀ df, drawFuncs fuel (useF fuel) name = some df → WideR d (df attrs d).2 := by
        intro df hd
        by_cases hu : name = "use".toList
        · subst hu; rw [drawFuncs_use] at hd; cases hd
          exact (useF_keepsQ wide_use fuel attrs d fun id ds h e he => .inr (hp.defs id ds h e he)).1
        · exact draw_wide hd ht hu attrs d
      rcases readStartElement_cases fuel name attrs d with ⟨-, -, -, -, h⟩ | ⟨-, ⟨-, h⟩ | ⟨df, hd, ⟨-, h⟩ | ⟨-, c', hE, h⟩ | ⟨-, -, h⟩⟩⟩
      · rw [h, recordDef_eq]; exact rfl
      · rw [h]; exact styleR_wide (handleError_styleR _ d)
      · rw [h]; exact hdf df hd
      · rw [h]
        refine wideR_pre.trans (hdf df hd) ?_
        cases hE <;> rfl
      · rw [h]; exact hdf df hd
    | err e => exact hbx
    | panic s => exact hbx
    | diverge => exact hbx
  | stop name =>
    rw [readToken]
    rcases readEnd_cases name c with ⟨-, h⟩ | ⟨c', -, h, hE⟩
    · rw [h]; exact rfl
    · rw [h]; show (c'.svg.width, c'.svg.height) = _; rw [hE.eq]
  | chars s =>
    rw [readToken]
    rw [WideR, (readChars_keeps s c).eq]
  | other => rfl

end GoSvg
