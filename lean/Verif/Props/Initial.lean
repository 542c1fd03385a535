import Verif.Props.Computed
import Verif.Lemmas.Real

/-! C71: the initial values of the properties. -/

namespace GoSvg.Spec

/-- The names of the style properties that are understood. -/
def styleNames : List String := ["fill", "fill-rule", "stroke", "stroke-linegap", "stroke-leadlinecap", "stroke-linecap", "stroke-linejoin",
  "stroke-miterlimit", "stroke-width", "stroke-dashoffset", "stroke-dasharray", "opacity", "stroke-opacity", "fill-opacity", "transform", "mask"]

/-- The elements declare none of them, neither as attributes nor in `style`. -/
def UnstyledAbove [GoEnv] (ch : List Elem) : Prop := ∀ e ∈ ch, ∀ d ∈ declared e.attrs, ∀ k ∈ styleNames, d.1 ≠ k.toList

end GoSvg.Spec

namespace GoSvg

open Spec

variable {F : Type} [GoFloat F] [GoEnv]

theorem readStyleAttr_other {st : PathStyle F} {k v : Str} (h : ∀ n ∈ styleNames, k ≠ n.toList) (c : Cursor F) :
    readStyleAttr st k v c = (.ok st, c) := by
  simp only [styleNames, List.forall_mem_cons] at h
  obtain ⟨h1, h2, h3, h4, h5, h6, h7, h8, h9, h10, h11, h12, h13, h14, h15, h16, -⟩ := h
  unfold readStyleAttr
  simp only [SM.bind_run, SM.get_run, if_neg h1, if_neg h2, if_neg h3, if_neg h4, if_neg h5, if_neg h6, if_neg h7, if_neg h8, if_neg h9,
    if_neg h10, if_neg h11, if_neg (not_or.2 ⟨h12, not_or.2 ⟨h13, h14⟩⟩), if_neg h15, if_neg h16]
  rfl

theorem declLoop_other {st : PathStyle F} {ds : List (Str × Str)} (h : ∀ d ∈ ds, ∀ n ∈ styleNames, d.1 ≠ n.toList) (c : Cursor F) :
    declLoop st ds c = (.ok st, c) := by
  induction ds with
  | nil => rfl
  | cons d ds ih =>
    rw [declLoop, SM.bind_run, readStyleAttr_other (h d List.mem_cons_self)]
    exact ih fun d hd => h d (List.mem_cons_of_mem _ hd)

theorem cascade_plain {V : List Elem → Cursor F → Prop} {ch : List Elem} {st : PathStyle F} (h : Cascade V ch st) (hu : UnstyledAbove ch) :
    st = defaultStyle := by
  induction h with
  | root => rfl
  | @elem e ch top st rest c c' h hs hv hl ih =>
    have := ih fun e he => hu e (List.mem_cons_of_mem _ he)
    subst this
    rw [decls_eq_declared, declLoop_other (hu e List.mem_cons_self)] at hl
    cases hl; rfl

/-- C71, for every arithmetic: a path whose element and ancestors declare no property is filled black by the nonzero rule, not stroked,
with full opacities, butt caps, no dashes, the miter limit 4, no masks and no transform, as SVG says; its stroke would be 2 wide with bevel
joins. Partial: balanced documents, and width and join are not those of SVG (`C71_stroke_false`). -/
theorem C71_initial_partial {fuel : Nat} {m : ErrorMode} {pre post : List Token} {name : Str} {attrs : List Attr} {s : Svg F}
    {l : List Msg} {i : Nat} {p : SvgPath F} (hb : Balanced (pre ++ [.start name attrs])) {ch : List Elem}
    (hch : openFrom [] pre = some ch)
    (h : parse (F := F) fuel m (pre ++ .start name attrs :: post) .eof = .done (some s) none l)
    (hd : DrawnBy (F := F) fuel m pre (.start name attrs) i) (hp : s.svgPaths[i]? = some p) (hu : UnstyledAbove (⟨name, attrs⟩ :: ch)) :
    p.style.fillerColor = some (.plain ⟨0, 0, 0, 255⟩) ∧ p.style.linerColor = none ∧ p.style.fillOpacity = num 1 ∧
    p.style.lineOpacity = num 1 ∧ p.style.useNonZeroWinding = true ∧ p.style.dash = ⟨[], num 0⟩ ∧
    p.style.join = ⟨toFix (num 4 : F), .bevel, .butt, .nilCap, .nilGap⟩ ∧ p.style.masks.len = 0 ∧
    p.style.transform = ⟨num 1, num 0, num 0, num 1, num 0, num 0⟩ ∧ p.style.lineWidth = num 2 := by
  have hc := drawnBy_cascade (V := fun _ _ => True) (W := fun _ _ _ => True) (fun _ _ _ _ => trivial)
    (fun _ _ _ _ _ _ _ _ _ _ _ => trivial) trivial hb hch h hd hp
  rw [cascade_plain hc hu]
  exact ⟨rfl, rfl, rfl, rfl, rfl, rfl, rfl, rfl, rfl, rfl⟩

end GoSvg

namespace GoSvg

open Spec

section Examples

attribute [local instance] asciiEnv
attribute [local instance] dummyLibm

/-- Elements without declarations. -/
def plRoot : Elem := ⟨"svg".toList, attrsOf [("viewBox", "0 0 30 40"), ("style", "color:red")]⟩
def plRect : Elem := ⟨"rect".toList, attrsOf [("x", "1"), ("width", "4"), ("height", "4"), ("class", "stroke")]⟩

/-- The hypotheses of `C71_initial_partial` are met next to elements with declarations. -/
theorem C71_example :
    let pre := tagOf plRoot :: elem "g" [("fill", "red")] (elem "line" [("stroke", "blue"), ("x2", "4")])
    let post := [.stop "rect".toList, .stop "svg".toList]
    Balanced (pre ++ [tagOf plRect]) ∧ openFrom [] pre = some [plRoot] ∧ DrawnBy (F := F64) 8 .strict pre (tagOf plRect) 1 ∧
    UnstyledAbove [plRect, plRoot] ∧ (styleAt (pre ++ tagOf plRect :: post) 1).isSome := by
  exact ⟨⟨by decide +kernel, .inl (by decide +kernel)⟩, by decide +kernel, by decide +kernel, by unfold UnstyledAbove; decide +kernel,
    by decide +kernel⟩

/-- C71 is false for the stroke: `<line x2="4" stroke="#000"/>` is 2 wide and has bevel joins; SVG says 1 and miter. -/
theorem C71_stroke_false :
    (styleAt (elem "svg" [] (elem "line" [("x2", "4"), ("stroke", "#000")])) 0).map (fun st => (st.lineWidth, st.join.lineJoin)) =
      some (num 2, .bevel) ∧ (num 2 : F64) ≠ num 1 := by
  decide +kernel

end Examples

end GoSvg
